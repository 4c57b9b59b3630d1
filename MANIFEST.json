{
 "claims": [
  {
   "property": "C01",
   "status": "proved",
   "theorems": [
    "Verif.Props.Ring.C01_fifo"
   ],
   "note": "All capacities, all element types, all in-contract histories."
  },
  {
   "property": "C02",
   "status": "proved",
   "theorems": [
    "Verif.Props.Ring.C02_counters",
    "Verif.Props.Ring.C02_zero_capacity"
   ],
   "note": "All histories without any precondition; capacity 0 shown to be out of bounds."
  },
  {
   "property": "C03",
   "status": "proved",
   "theorems": [
    "Verif.Props.Ring.C03_bulk_push",
    "Verif.Props.Ring.C03_bulk_pull"
   ],
   "note": ""
  },
  {
   "property": "C04",
   "status": "proved",
   "theorems": [
    "Verif.Props.Ring.C04_push_full",
    "Verif.Props.Ring.C04_order_broken"
   ],
   "note": "Exact effect proved; the stronger FIFO expectation is refuted for every capacity >= 2."
  },
  {
   "property": "C05",
   "status": "proved",
   "theorems": [
    "Verif.Props.Ring.C05_pull_empty",
    "Verif.Props.Ring.C05_desync",
    "Verif.Props.Ring.C05_desync_stream"
   ],
   "note": "Exact effect proved; normal behaviour afterwards refuted for every capacity >= 2."
  },
  {
   "property": "C06",
   "status": "proved",
   "theorems": [
    "Verif.Props.Ring.C06_flush",
    "Verif.Props.Line.C06_flush_line"
   ],
   "note": ""
  },
  {
   "property": "C07",
   "status": "proved",
   "theorems": [
    "Verif.Props.Line.C07_line_count",
    "Verif.Props.Line.C07_C09_line_buffer"
   ],
   "note": ""
  },
  {
   "property": "C08",
   "status": "proved",
   "theorems": [
    "Verif.Props.Serial.C08_canReadLine",
    "Verif.Props.Serial.C08_wrap"
   ],
   "note": "Both halves: equivalence below 65536 buffered newlines, failure at 65536."
  },
  {
   "property": "C09",
   "status": "proved",
   "theorems": [
    "Verif.Props.Line.C09_readLine",
    "Verif.Props.Line.C07_C09_line_buffer"
   ],
   "note": ""
  },
  {
   "property": "C10",
   "status": "proved",
   "theorems": [
    "Verif.Props.Serial.C10_readLine",
    "Verif.Props.Serial.C10_readLine_zero",
    "Verif.Props.Serial.C10_newline_kept"
   ],
   "note": "The documentation (newline replaced by the zero) is not what the code does; C10_newline_kept shows it."
  },
  {
   "property": "C11",
   "status": "proved",
   "theorems": [
    "Verif.Props.Serial.C11_rx_stream",
    "Verif.Props.Serial.C11_read_results"
   ],
   "note": ""
  },
  {
   "property": "C12",
   "status": "proved",
   "theorems": [
    "Verif.Props.Serial.C12_tx_stream"
   ],
   "note": ""
  },
  {
   "property": "C13",
   "status": "proved",
   "theorems": [
    "Verif.Props.Serial.C13_write",
    "Verif.Props.Serial.C13_writeStr",
    "Verif.Props.Serial.space_seen"
   ],
   "note": ""
  },
  {
   "property": "C14",
   "status": "proved",
   "theorems": [
    "Verif.Props.Serial.C14_overflow_step",
    "Verif.Props.Serial.C14_accepted_sublist"
   ],
   "note": ""
  },
  {
   "property": "C15",
   "status": "proved",
   "theorems": [
    "Verif.Props.Serial.C15_transmit"
   ],
   "note": ""
  },
  {
   "property": "C16",
   "status": "proved",
   "theorems": [
    "Verif.Props.Serial.C16_enabled_after",
    "Verif.Props.Serial.C16_first_call",
    "Verif.Props.Serial.C16_not_nested"
   ],
   "note": "Closing proved, preservation of the caller state refuted."
  },
  {
   "property": "C17",
   "status": "proved",
   "theorems": [
    "Verif.Props.Sched.C17_round_robin",
    "Verif.Props.Sched.C17_each_once",
    "Verif.Props.Sched.C17_empty_list"
   ],
   "note": ""
  },
  {
   "property": "C18",
   "status": "proved",
   "theorems": [
    "Verif.Props.Sched.C18_min_delay"
   ],
   "note": "Needs no bound on the true gap: the code can only err on the late side."
  },
  {
   "property": "C19",
   "status": "proved",
   "theorems": [
    "Verif.Props.Sched.C19_run_iff_due",
    "Verif.Props.Sched.C19_zero_delay_every_round"
   ],
   "note": ""
  },
  {
   "property": "C20",
   "status": "proved",
   "theorems": [
    "Verif.Props.Reenter.C20_coroutine",
    "Verif.Props.Reenter.C20_prefix",
    "Verif.Props.Reenter.C20_end",
    "Verif.Props.Reenter.C20_labels_too_big",
    "Verif.Props.Reenter.C20_label_wrap_repeats"
   ],
   "note": "Straight-line bodies whose labels fit 8 bits; the two negative theorems show what happens if they do not."
  },
  {
   "property": "C21",
   "status": "proved",
   "theorems": [
    "Verif.Props.Sched.C21_timeout",
    "Verif.Props.Sched.C21_no_restart",
    "Verif.Props.Reenter.C21_wait",
    "Verif.Props.Reenter.C20_coroutine"
   ],
   "note": ""
  },
  {
   "property": "C22",
   "status": "proved",
   "theorems": [
    "Verif.Props.Sched.C22_delay",
    "Verif.Props.Sched.C22_runs_early",
    "Verif.Props.Reenter.C20_coroutine"
   ],
   "note": ""
  },
  {
   "property": "C23",
   "status": "proved",
   "theorems": [
    "Verif.Props.Reenter.C23_shared_entrypoint"
   ],
   "note": "The expectation is refuted for every body of the form actions, yield, actions."
  },
  {
   "property": "C24",
   "status": "proved",
   "theorems": [
    "Verif.Props.Countdown.C24_countdown",
    "Verif.Props.Countdown.C24_seconds",
    "Verif.Props.Countdown.C24_seconds_overflow",
    "Verif.Props.Countdown.C24_wrap_expired_at_once",
    "Verif.Props.Countdown.C24_wrap_never_expires"
   ],
   "note": "Positive part within one tick period; both failures across the wrap."
  },
  {
   "property": "C25",
   "status": "proved",
   "theorems": [
    "Verif.Props.Blocking.C25_read",
    "Verif.Props.Blocking.logged_read"
   ],
   "note": ""
  },
  {
   "property": "C26",
   "status": "proved",
   "theorems": [
    "Verif.Props.Blocking.C26_read_ends",
    "Verif.Props.Blocking.C26_write_ends",
    "Verif.Props.Blocking.C26_minus_one_never_expires"
   ],
   "note": "Needs timeout plus polling period below 2^31; timeout -1 never expires."
  },
  {
   "property": "C27",
   "status": "proved",
   "theorems": [
    "Verif.Props.Blocking.C27_write",
    "Verif.Props.Blocking.C27_zero_but_sent",
    "Verif.Props.Blocking.C27_too_long"
   ],
   "note": "The converse is refuted."
  },
  {
   "property": "C28",
   "status": "proved",
   "theorems": [
    "Verif.Props.DriverApi.C28_connect",
    "Verif.Props.DriverApi.C28_connect_sim",
    "Verif.Props.DriverApi.C28_connect_esp"
   ],
   "note": "SSID and password pointers have no initialiser: the WiFi statement needs them set."
  },
  {
   "property": "C29",
   "status": "proved",
   "theorems": [
    "Verif.Props.DriverApi.C29_not_connected",
    "Verif.Props.DriverApi.C29_write",
    "Verif.Props.DriverApi.C29_exclusive",
    "Verif.Props.DriverApi.C29_disconnect"
   ],
   "note": ""
  },
  {
   "property": "C30",
   "status": "proved",
   "theorems": [
    "Verif.Props.Link.C30_sim7x00",
    "Verif.Props.Link.C30_sim800",
    "Verif.Props.Link.C30_espressif",
    "Verif.Props.Link.C30_cc1352p7"
   ],
   "note": "All histories from the constructor."
  },
  {
   "property": "C31",
   "status": "proved",
   "theorems": [
    "Verif.Props.Rest.C31_sim7x00",
    "Verif.Props.Rest.C31_espressif",
    "Verif.Props.Rest.C31_sim800",
    "Verif.Props.Rest.C31_cc1352p7",
    "Verif.Props.Rest.C31_sim800_unasked",
    "Verif.Props.Rest.C31_cc1352p7_unasked"
   ],
   "note": "All histories; SIM800 and CC1352P7 under the condition that no error line arrives, with witnesses that they connect unasked otherwise."
  },
  {
   "property": "C32",
   "status": "proved",
   "theorems": [
    "Verif.Props.OneCmd.C32_sim7x00",
    "Verif.Props.OneCmd.C32_sim7x00_run",
    "Verif.Props.OneCmd.C32_sim800",
    "Verif.Props.OneCmd.C32_sim800_run",
    "Verif.Props.OneCmd.C32_espressif",
    "Verif.Props.OneCmd.C32_espressif_run",
    "Verif.Props.OneCmd.C32_cc1352p7",
    "Verif.Props.OneCmd.C32_cc1352p7_run"
   ],
   "note": "All histories; the answers are tables in Spec/Waiting.lean. The second part holds in every state."
  },
  {
   "property": "C33",
   "status": "proved",
   "theorems": [
    "Verif.Props.Payload.C33_sim7x00",
    "Verif.Props.Payload.C33_sim800",
    "Verif.Props.Payload.C33_espressif",
    "Verif.Props.Payload.C33_cc1352p7",
    "Verif.Props.Payload.C33_sim7x00_unprompted",
    "Verif.Props.Payload.C33_sim800_unprompted"
   ],
   "note": "All histories. For the cellular drivers the theorem names the two lines that release the payload, and witnesses show payload without any prompt."
  },
  {
   "property": "C34",
   "status": "proved",
   "theorems": [
    "Verif.Props.Payload.C33_sim7x00",
    "Verif.Props.Payload.C33_sim800",
    "Verif.Props.Payload.C33_espressif",
    "Verif.Props.Payload.C33_cc1352p7",
    "Verif.Props.Payload.C34_sim7x00",
    "Verif.Props.Payload.C34_sim800",
    "Verif.Props.Payload.C34_espressif",
    "Verif.Props.Payload.C34_cc1352p7",
    "Verif.Props.Payload.C34_digits",
    "Verif.Props.Payload.C34_digits_wrong",
    "Verif.Props.Payload.C34_sim7x00_race",
    "Verif.Props.Payload.C34_sim800_race",
    "Verif.Props.Payload.C34_espressif_race",
    "Verif.Props.Payload.C34_cc1352p7_race"
   ],
   "note": "All histories. Stream equality under the stated condition on the transmit interrupt; witnesses show what happens without it."
  },
  {
   "property": "C35",
   "status": "proved",
   "theorems": [
    "Verif.Props.Payload.C35_sim7x00",
    "Verif.Props.Payload.C35_sim7x00_id",
    "Verif.Props.Payload.C35_sim800",
    "Verif.Props.Payload.C35_sim800_id",
    "Verif.Props.Payload.C35_espressif",
    "Verif.Props.Payload.C35_espressif_mac",
    "Verif.Props.Payload.C35_cc1352p7",
    "Verif.Props.Payload.C35_cc1352p7_mac"
   ],
   "note": "The expectation is refuted for every driver and both kinds of request."
  },
  {
   "property": "C36",
   "status": "proved",
   "theorems": [
    "Verif.Props.Receive.C36_sim7x00",
    "Verif.Props.Receive.C36_sim800",
    "Verif.Props.Receive.C36_espressif",
    "Verif.Props.Receive.C36_cc1352p7",
    "Verif.Props.Receive.C36_sim7x00_overwritten",
    "Verif.Props.Receive.C36_sim800_overwritten",
    "Verif.Props.Receive.C36_espressif_overwritten",
    "Verif.Props.Receive.C36_cc1352p7_overwritten"
   ],
   "note": "All histories from the constructor; the header formats are in Spec/Receiving.lean. Witnesses show the overwriting when the modem delivers too much."
  },
  {
   "property": "C37",
   "status": "proved",
   "theorems": [
    "Verif.Props.Receive.C37_sim7x00",
    "Verif.Props.Receive.C37_sim800",
    "Verif.Props.Receive.C37_espressif",
    "Verif.Props.Receive.C37_cc1352p7",
    "Verif.Props.Receive.C37_sim7x00_limit",
    "Verif.Props.Receive.C37_sim800_limit",
    "Verif.Props.Receive.C37_sim7x00_race",
    "Verif.Props.Receive.C37_sim800_race",
    "Verif.Props.Receive.C37_espressif_race",
    "Verif.Props.Receive.C37_cc1352p7_race"
   ],
   "note": "Every state and every run(); witnesses for the race."
  },
  {
   "property": "C38",
   "status": "proved",
   "theorems": [
    "Verif.Props.LineAsm.C38_safe_sim7x00",
    "Verif.Props.LineAsm.C38_safe_sim800",
    "Verif.Props.LineAsm.C38_safe_espressif",
    "Verif.Props.LineAsm.C38_safe_cc1352p7",
    "Verif.Props.LineAsm.C38_stream_sim7x00",
    "Verif.Props.LineAsm.C38_stream_sim800",
    "Verif.Props.LineAsm.C38_stream_espressif",
    "Verif.Props.LineAsm.C38_stream_cc1352p7"
   ],
   "note": "All histories; the stream part of the Espressif driver for TCP connections."
  },
  {
   "property": "C39",
   "status": "proved",
   "theorems": [
    "Verif.Props.DriverApi.C39_lock",
    "Verif.Props.DriverApi.C39_locked_sim7x00",
    "Verif.Props.DriverApi.C39_locked_sim800",
    "Verif.Props.DriverApi.C39_serial_access",
    "Verif.Props.Locked.C39_sim7x00_within",
    "Verif.Props.Locked.C39_sim800_within"
   ],
   "note": "Port open; only the cellular drivers have a lock."
  },
  {
   "property": "C40",
   "status": "proved",
   "theorems": [
    "Verif.Props.Parse.C40_value",
    "Verif.Props.Parse.C40_range",
    "Verif.Props.Parse.C40_wrap",
    "Verif.Props.Parse.C40_cc",
    "Verif.Props.Parse.C40_cc_negative"
   ],
   "note": "Exact conversion below 2^32 or with a 32 bit long, range for every line, wrap-around shown."
  },
  {
   "property": "C41",
   "status": "proved",
   "theorems": [
    "Verif.Props.Parse.C41_check",
    "Verif.Props.Parse.C41_parse",
    "Verif.Props.Iccid.C41_sim7x00",
    "Verif.Props.Iccid.C41_sim800",
    "Verif.Props.Iccid.C41_sim800_replaced"
   ],
   "note": "C41_check relates the code to an independent definition of the Luhn sum; the theorems about the drivers hold for all histories from the constructor state; C41_sim800_replaced is the refutation for SIM800 with signal strength requests."
  },
  {
   "property": "C42",
   "status": "proved",
   "theorems": [
    "Verif.Props.Parse.C42_dns",
    "Verif.Props.Parse.C42_overflow"
   ],
   "note": "Positive for addresses of at most 15 characters, overflow proved for longer ones."
  },
  {
   "property": "C43",
   "status": "proved",
   "theorems": [
    "Verif.Props.DriverApi.C43_sim",
    "Verif.Props.DriverApi.C43_esp",
    "Verif.Props.DriverApi.C43_cc",
    "Verif.Props.DriverApi.C43_mac_survives",
    "Verif.Props.DriverApi.C43_delay_survives"
   ],
   "note": ""
  },
  {
   "property": "C44",
   "status": "proved",
   "theorems": [
    "Verif.Props.Handshake.C44_sim7x00",
    "Verif.Props.Handshake.C44_sim7x00_lasts",
    "Verif.Props.Handshake.C44_sim800",
    "Verif.Props.Handshake.C44_sim800_lasts",
    "Verif.Props.Handshake.C44_espressif",
    "Verif.Props.Handshake.C44_espressif_lasts",
    "Verif.Props.Handshake.C44_cc1352p7",
    "Verif.Props.Handshake.C44_cc1352p7_lasts"
   ],
   "note": "From the constructor state, after any number of complete connections, for every prefix of the dialogue. The environment is Verif.Spec.Chat: interrupts between calls, lines of at most 60 bytes without prompt characters, arriving in pieces; the transmit buffer runs empty before each piece and run() is called after each."
  },
  {
   "property": "C45",
   "status": "proved",
   "theorems": [
    "Verif.Props.Handshake.C45_sim7x00",
    "Verif.Props.Handshake.C45_sim800",
    "Verif.Props.Handshake.C45_espressif",
    "Verif.Props.Handshake.C45_cc1352p7"
   ],
   "note": "By induction over the list of connections."
  },
  {
   "property": "C46",
   "status": "proved",
   "theorems": [
    "Verif.Props.Quit.C46_sim800",
    "Verif.Props.Quit.C46_espressif",
    "Verif.Props.Quit.C46_cc1352p7",
    "Verif.Props.Quit.C46_espressif_stays",
    "Verif.Props.Quit.C46_sim7x00_forgotten",
    "Verif.Props.Quit.C46_sim800_again",
    "Verif.Props.Quit.C46_cc1352p7_again"
   ],
   "note": "Premise 'never idle' is over every prefix of the later operations. C46_espressif_stays assumes that no connection request is stored when disconnect() is called (connectPending = false). C46_sim7x00_forgotten is a concrete history violating the expectation for SIM7x00."
  },
  {
   "property": "C47",
   "status": "proved",
   "theorems": [
    "Verif.Props.Wedge.C47_sim7x00_dead",
    "Verif.Props.Wedge.C47_sim800_dead",
    "Verif.Props.Wedge.C47_espressif_dead",
    "Verif.Props.Wedge.C47_cc1352p7_dead"
   ],
   "note": "The expectation is refuted for every driver, for every later history."
  },
  {
   "property": "C48",
   "status": "proved",
   "theorems": [
    "Verif.Props.Wedge.C48_espressif_stuck",
    "Verif.Props.Wedge.C48_espressif_reachable"
   ],
   "note": "All histories from the constructor; the situation is reachable."
  },
  {
   "property": "C49",
   "status": "proved",
   "theorems": [
    "Verif.Props.Wedge.C49_sim7x00_deaf",
    "Verif.Props.Wedge.C49_sim7x00_reachable",
    "Verif.Props.Wedge.C49_sim800_deaf",
    "Verif.Props.Wedge.C49_sim800_reachable",
    "Verif.Props.Hollow.C49_espressif_deaf",
    "Verif.Props.Hollow.C49_espressif_reachable",
    "Verif.Props.Hollow.C49_cc1352p7_deaf",
    "Verif.Props.Hollow.C49_cc1352p7_reachable"
   ],
   "note": "All histories from the constructor; the situation is reachable. WiFi: connections with TCP (others: C82)."
  },
  {
   "property": "C50",
   "status": "proved",
   "theorems": [
    "Verif.Props.ModemDetect.C50_sound",
    "Verif.Props.ModemDetect.C50_driver",
    "Verif.Props.ModemDetect.C50_forward",
    "Verif.Props.ModemDetect.C50_final",
    "Verif.Props.ModemDetect.C50_forgotten",
    "Verif.Props.ModemDetect.C50_error_final",
    "Verif.Props.ModemDetect.C50_queries",
    "Verif.Props.ModemDetect.C50_ub",
    "Verif.Props.ModemDetect.C50_lines"
   ],
   "note": "All histories from the constructor; drivers are those of the driver models."
  },
  {
   "property": "C51",
   "status": "proved",
   "theorems": [
    "Verif.Props.Uart.C51_armed",
    "Verif.Props.Uart.C51_written",
    "Verif.Props.Uart.C51_history",
    "Verif.Props.Uart.C51_drains",
    "Verif.Props.Uart.C51_off",
    "Verif.Props.Uart.C51_stream",
    "Verif.Props.Uart.C51_accepts",
    "Verif.Props.Uart.C51_before_open",
    "Verif.Props.Uart.C51_reopened"
   ],
   "note": "Small-step model of main program and interrupts; assumptions about HAL and hardware are listed in Model/Stm32Uart.lean."
  },
  {
   "property": "C52",
   "status": "proved",
   "theorems": [
    "Verif.Props.Uart.C52_lookup",
    "Verif.Props.Uart.C52_dropped",
    "Verif.Props.Uart.C52_dangling"
   ],
   "note": ""
  },
  {
   "property": "C53",
   "status": "proved",
   "theorems": [
    "Verif.Props.PortConfig.C53_linux",
    "Verif.Props.PortConfig.C53_stm32",
    "Verif.Props.PortConfig.C53_rate_rejected",
    "Verif.Props.PortConfig.C53_half_rejected"
   ],
   "note": "Refuted expectation: C53_half_rejected."
  },
  {
   "property": "C54",
   "status": "proved",
   "theorems": [
    "Verif.Props.MacQuery.C54_espressif_signed",
    "Verif.Props.MacQuery.C54_espressif_unsigned",
    "Verif.Props.MacQuery.C54_cc1352p7_signed",
    "Verif.Props.MacQuery.C54_cc1352p7_unsigned"
   ],
   "note": "All histories (signed); every state of the stated kind (unsigned)."
  },
  {
   "property": "C55",
   "status": "proved",
   "theorems": [
    "Verif.Props.Order.C55_sim7x00",
    "Verif.Props.Order.C55_sim800",
    "Verif.Props.Order.C55_espressif",
    "Verif.Props.Order.C55_cc1352p7"
   ],
   "note": "All histories from the constructor; the diagrams are tables in Spec/Order.lean."
  },
  {
   "property": "C56",
   "status": "proved",
   "theorems": [
    "Verif.Props.Whole.C56_sim7x00",
    "Verif.Props.Whole.C56_short_sim7x00",
    "Verif.Props.Whole.C56_sim7x00_cut",
    "Verif.Props.Whole.C56_sim800",
    "Verif.Props.Whole.C56_short_sim800",
    "Verif.Props.Whole.C56_sim800_cut",
    "Verif.Props.Whole.C56_espressif",
    "Verif.Props.Whole.C56_short_espressif",
    "Verif.Props.Whole.C56_espressif_cut",
    "Verif.Props.Whole.C56_cc1352p7",
    "Verif.Props.Whole.C56_short_cc1352p7",
    "Verif.Props.Whole.C56_cc1352p7_cut",
    "Verif.Props.Whole.C56_sim7x00_reset",
    "Verif.Props.Whole.C56_espressif_reset"
   ],
   "note": "Per run() of every state; the cut-off commands are witnesses from the constructor state."
  },
  {
   "property": "C57",
   "status": "proved",
   "theorems": [
    "Verif.Props.Stale.C57_sim7x00_stale",
    "Verif.Props.Stale.C57_sim800_stale",
    "Verif.Props.Stale.C57_espressif_stale",
    "Verif.Props.Stale.C57_cc1352p7_stale",
    "Verif.Props.Locked.C57_espressif_wrap",
    "Verif.Props.Locked.C57_cc1352p7_wrap"
   ],
   "note": "The expectations are refuted by histories from the constructor."
  },
  {
   "property": "C58",
   "status": "proved",
   "theorems": [
    "Verif.Props.Stale.C58_sim7x00_aborted",
    "Verif.Props.Stale.C58_sim800_aborted",
    "Verif.Props.Stale.C58_espressif_aborted",
    "Verif.Props.Stale.C58_cc1352p7_aborted"
   ],
   "note": "The expectation is refuted for every driver by a history from the constructor."
  },
  {
   "property": "C59",
   "status": "proved",
   "theorems": [
    "Verif.Props.Order.C59_sim7x00",
    "Verif.Props.Order.C59_sim800",
    "Verif.Props.Order.C59_espressif",
    "Verif.Props.Order.C59_cc1352p7"
   ],
   "note": "Every state; the languages are inductive predicates in Spec/Language.lean. That the serial device accepts the whole text is C56."
  },
  {
   "property": "C60",
   "status": "proved",
   "theorems": [
    "Verif.Props.PortConfig.C60_descriptors",
    "Verif.Props.PortConfig.C60_configured",
    "Verif.Props.PortConfig.C60_open_unaffected",
    "Verif.Props.PortConfig.C60_leak"
   ],
   "note": "System calls are an oracle of outcomes."
  },
  {
   "property": "C61",
   "status": "proved",
   "theorems": [
    "Verif.Props.Handshake.C61_sim7x00",
    "Verif.Props.Handshake.C61_sim800",
    "Verif.Props.Handshake.C61_espressif",
    "Verif.Props.Handshake.C61_cc1352p7",
    "Verif.Props.PeerGone.C61_sim7x00_leaves",
    "Verif.Props.PeerGone.C61_sim7x00_gone",
    "Verif.Props.PeerGone.C61_sim7x00_noticed"
   ],
   "note": "C61_sim7x00 is the refutation for that driver: it holds for every number of run() calls. C61_sim7x00_noticed is a witness."
  },
  {
   "property": "C62",
   "status": "proved",
   "theorems": [
    "Verif.Props.Traffic.C62_sim7x00",
    "Verif.Props.Traffic.C62_sim800",
    "Verif.Props.Traffic.C62_espressif",
    "Verif.Props.Traffic.C62_cc1352p7"
   ],
   "note": "The modem is Spec/Modem.lean. Lines and blocks of data arrive in arbitrary pieces, each after the transmit buffer was emptied and followed by run(); the modem takes data from the server between its own lines. Amounts below 2^31. Espressif with UDP or SSL is excluded (data is pushed there, see C48)."
  },
  {
   "property": "C63",
   "status": "proved",
   "theorems": [
    "Verif.Props.Traffic.C63_sim7x00",
    "Verif.Props.Traffic.C63_sim7x00_close",
    "Verif.Props.Traffic.C63_sim800",
    "Verif.Props.Traffic.C63_sim800_close",
    "Verif.Props.Traffic.C63_espressif",
    "Verif.Props.Traffic.C63_espressif_close",
    "Verif.Props.Traffic.C63_cc1352p7",
    "Verif.Props.Traffic.C63_cc1352p7_close"
   ],
   "note": "As C62; a round ends when the line under way is complete, and exists_rounds shows that from every state there are as many rounds as needed; Espressif and CC1352P7 modems announce all data that arrives, with the amount that waits; SIM modems may be silent while data waits. disconnect() follows after the rounds; nothing is claimed here about a disconnect() while data is under way."
  },
  {
   "property": "C64",
   "status": "proved",
   "theorems": [
    "Verif.Props.Wire.C64_sim7x00",
    "Verif.Props.Wire.C64_sim7x00_drained",
    "Verif.Props.Wire.C64_sim7x00_overrun",
    "Verif.Props.Wire.C64_sim800",
    "Verif.Props.Wire.C64_sim800_drained",
    "Verif.Props.Wire.C64_sim800_overrun",
    "Verif.Props.Wire.C64_espressif",
    "Verif.Props.Wire.C64_espressif_drained",
    "Verif.Props.Wire.C64_espressif_overrun",
    "Verif.Props.Wire.C64_cc1352p7",
    "Verif.Props.Wire.C64_cc1352p7_drained",
    "Verif.Props.Wire.C64_cc1352p7_overrun"
   ],
   "note": "_drained: hypothesis that the transmit buffer is empty when a run() begins that sends payload. _overrun: concrete histories in which a prompt and the answer to a status request come before the command has left."
  },
  {
   "property": "C65",
   "status": "proved",
   "theorems": [
    "Verif.Props.Closing.C65_sim7x00",
    "Verif.Props.Closing.C65_sim7x00_sent",
    "Verif.Props.Closing.C65_sim7x00_late",
    "Verif.Props.Closing.C65_sim800",
    "Verif.Props.Closing.C65_sim800_sent",
    "Verif.Props.Closing.C65_sim800_late",
    "Verif.Props.Closing.C65_espressif",
    "Verif.Props.Closing.C65_espressif_sent",
    "Verif.Props.Closing.C65_espressif_late",
    "Verif.Props.Closing.C65_cc1352p7",
    "Verif.Props.Closing.C65_cc1352p7_sent",
    "Verif.Props.Closing.C65_cc1352p7_late"
   ],
   "note": "_late: concrete histories for the data accepted too late."
  },
  {
   "property": "C66",
   "status": "proved",
   "theorems": [
    "Verif.Props.Closing.C66_sim7x00_leak",
    "Verif.Props.Closing.C66_sim7x00",
    "Verif.Props.Closing.C66_sim800_leak",
    "Verif.Props.Closing.C66_sim800",
    "Verif.Props.Closing.C66_espressif_leak",
    "Verif.Props.Closing.C66_espressif",
    "Verif.Props.Closing.C66_cc1352p7_leak",
    "Verif.Props.Closing.C66_cc1352p7"
   ],
   "note": "_leak: concrete histories with two hosts."
  },
  {
   "property": "C67",
   "status": "proved",
   "theorems": [
    "Verif.Props.Recovery.C67_sim7x00",
    "Verif.Props.Recovery.C67_sim800",
    "Verif.Props.Recovery.C67_espressif",
    "Verif.Props.Recovery.C67_cc1352p7"
   ],
   "note": "After a refusal (SIM800, CC1352P7: also after the answer to the closing) the driver is given two calls of run() before the modem speaks again."
  },
  {
   "property": "C68",
   "status": "proved",
   "theorems": [
    "Verif.Props.Abort.C68_sim7x00",
    "Verif.Props.Abort.C68_sim800",
    "Verif.Props.Abort.C68_espressif",
    "Verif.Props.Abort.C68_cc1352p7",
    "Verif.Props.Abort.C68_sim800_stuck"
   ],
   "note": "After each answer that follows disconnect() the driver is given two calls of run() before the modem speaks again. C68_sim800_stuck is the refuted part."
  },
  {
   "property": "C69",
   "status": "proved",
   "theorems": [
    "Verif.Props.Asking.C69_sim7x00",
    "Verif.Props.Asking.C69_sim7x00_connected",
    "Verif.Props.Asking.C69_sim800",
    "Verif.Props.Asking.C69_sim800_connected",
    "Verif.Props.Asking.C69_espressif",
    "Verif.Props.Asking.C69_espressif_connected",
    "Verif.Props.Asking.C69_cc1352p7",
    "Verif.Props.Asking.C69_cc1352p7_connected",
    "Verif.Props.Asking.C69_espressif_long",
    "Verif.Props.Asking.C69_espressif_comma",
    "Verif.Props.Asking.C69_sim7x00_ring",
    "Verif.Props.Asking.C69_sim800_ring",
    "Verif.Props.Asking.C69_sim7x00_iccid",
    "Verif.Props.Locked.C69_espressif_mark"
   ],
   "note": "The last six are witnesses for the refuted part. Before an identification only lines that start with a plus sign, AT or are empty may come. requestMac(): where char is unsigned (C54)."
  },
  {
   "property": "C70",
   "status": "proved",
   "theorems": [
    "Verif.Props.Answer.C70_sim7x00",
    "Verif.Props.Answer.C70_sim800",
    "Verif.Props.Answer.C70_espressif",
    "Verif.Props.Answer.C70_cc1352p7",
    "Verif.Props.Answer.C70_sim7x00_iccid",
    "Verif.Props.Answer.C70_sim800_iccid",
    "Verif.Props.Answer.C70_sim7x00_second",
    "Verif.Props.Answer.C70_sim800_second"
   ],
   "note": "The last two are witnesses for the refuted part. Which lines count as the value is in Spec/Answer.lean: for identifications every line that starts neither with AT nor a plus sign nor a carriage return, so OK as well; on SIM800 such a line also ends the wait for the signal strength, on CC1352P7 a MAC address does. C70_sim800_iccid excludes requestRSSI() (C41)."
  },
  {
   "property": "C71",
   "status": "proved",
   "theorems": [
    "Verif.Props.Detect.C71_sim7x00",
    "Verif.Props.Detect.C71_sim800",
    "Verif.Props.Detect.C71_espressif",
    "Verif.Props.Detect.C71_cc1352p7",
    "Verif.Props.Detect.C71_sim7x00_used",
    "Verif.Props.Detect.C71_sim800_used",
    "Verif.Props.Detect.C71_espressif_used",
    "Verif.Props.Detect.C71_cc1352p7_used",
    "Verif.Props.Detect.C71_cc1352p7_early"
   ],
   "note": "The last one is the witness for the refuted part. Lines have at most 60 bytes and neither zero bytes nor a prompt character; the rest of the answer to the query must not contain a line that the driver takes for a modem error."
  },
  {
   "property": "C72",
   "status": "proved",
   "theorems": [
    "Verif.Props.Block.C72_sim7x00_read",
    "Verif.Props.Block.C72_sim7x00_read_ends",
    "Verif.Props.Block.C72_sim7x00_write",
    "Verif.Props.Block.C72_sim7x00_write_ends",
    "Verif.Props.Block.C72_sim7x00_stuck",
    "Verif.Props.Block.C72_sim7x00_zero_but_sent",
    "Verif.Props.Block.C72_sim800_read",
    "Verif.Props.Block.C72_sim800_read_ends",
    "Verif.Props.Block.C72_sim800_write",
    "Verif.Props.Block.C72_sim800_write_ends",
    "Verif.Props.Block.C72_sim800_stuck",
    "Verif.Props.Block.C72_sim800_zero_but_sent",
    "Verif.Props.Block.C72_espressif_read",
    "Verif.Props.Block.C72_espressif_read_ends",
    "Verif.Props.Block.C72_espressif_write",
    "Verif.Props.Block.C72_espressif_write_ends",
    "Verif.Props.Block.C72_espressif_stuck",
    "Verif.Props.Block.C72_espressif_zero_but_sent",
    "Verif.Props.Block.C72_cc1352p7_read",
    "Verif.Props.Block.C72_cc1352p7_read_ends",
    "Verif.Props.Block.C72_cc1352p7_write",
    "Verif.Props.Block.C72_cc1352p7_write_ends",
    "Verif.Props.Block.C72_cc1352p7_stuck",
    "Verif.Props.Block.C72_cc1352p7_zero_but_sent"
   ],
   "note": "The last two of each driver are witnesses for the refuted parts. Same modem as in C61; Espressif: TCP."
  },
  {
   "property": "C73",
   "status": "proved",
   "theorems": [
    "Verif.Props.Early.C73_sim7x00_line",
    "Verif.Props.Early.C73_sim7x00_block",
    "Verif.Props.Early.C73_sim7x00_ask",
    "Verif.Props.Early.C73_sim800_line",
    "Verif.Props.Early.C73_sim800_block",
    "Verif.Props.Early.C73_sim800_ask",
    "Verif.Props.Early.C73_espressif_line",
    "Verif.Props.Early.C73_espressif_block",
    "Verif.Props.Early.C73_espressif_ask",
    "Verif.Props.Early.C73_cc1352p7_line",
    "Verif.Props.Early.C73_cc1352p7_block",
    "Verif.Props.Early.C73_cc1352p7_ask"
   ],
   "note": "Equality of the whole states, including everything sent and delivered. `_ask` is the witness that the exception is needed. Interrupts happen between calls; C01-C05 treat interrupts inside calls."
  },
  {
   "property": "C74",
   "status": "proved",
   "theorems": [
    "Verif.Props.Fits.C74_espressif",
    "Verif.Props.Fits.C74_cc1352p7",
    "Verif.Props.Fits.C74_sim7x00",
    "Verif.Props.Fits.C74_sim800"
   ],
   "note": "The last two are witnesses for the refuted part. The header is the one described in the comment of the code (the modem may answer with fewer bytes than asked for)."
  },
  {
   "property": "C75",
   "status": "proved",
   "theorems": [
    "Verif.Props.Cable.C75_sim7x00",
    "Verif.Props.Cable.C75_sim7x00_reads",
    "Verif.Props.Cable.C75_sim7x00_settles",
    "Verif.Props.Cable.C75_sim7x00_close",
    "Verif.Props.Cable.C75_sim7x00_rounds",
    "Verif.Props.Cable.C75_sim800",
    "Verif.Props.Cable.C75_sim800_reads",
    "Verif.Props.Cable.C75_sim800_settles",
    "Verif.Props.Cable.C75_sim800_close",
    "Verif.Props.Cable.C75_sim800_rounds",
    "Verif.Props.Cable.C75_espressif",
    "Verif.Props.Cable.C75_espressif_reads",
    "Verif.Props.Cable.C75_espressif_settles",
    "Verif.Props.Cable.C75_espressif_close",
    "Verif.Props.Cable.C75_espressif_rounds",
    "Verif.Props.Cable.C75_cc1352p7",
    "Verif.Props.Cable.C75_cc1352p7_reads",
    "Verif.Props.Cable.C75_cc1352p7_settles",
    "Verif.Props.Cable.C75_cc1352p7_close",
    "Verif.Props.Cable.C75_cc1352p7_rounds"
   ],
   "note": "The cable has flow control (bytes arrive only while the receive buffer has room; without it, C74 shows the loss) and the transmit buffer has been emptied when run() is called. A round ends when everything said has arrived and was read; _reads shows that this is reached, _rounds that rounds always exist."
  },
  {
   "property": "C76",
   "status": "proved",
   "theorems": [
    "Verif.Props.Large.C76_sim7x00_never",
    "Verif.Props.Large.C76_sim7x00_room",
    "Verif.Props.Large.C76_sim7x00_reachable",
    "Verif.Props.Large.C76_sim7x00_rescue",
    "Verif.Props.Large.C76_sim800_never",
    "Verif.Props.Large.C76_sim800_room",
    "Verif.Props.Large.C76_sim800_reachable",
    "Verif.Props.Large.C76_sim800_rescue",
    "Verif.Props.Large.C76_espressif_never",
    "Verif.Props.Large.C76_espressif_room",
    "Verif.Props.Large.C76_espressif_reachable",
    "Verif.Props.Large.C76_espressif_rescue",
    "Verif.Props.Large.C76_cc1352p7_never",
    "Verif.Props.Large.C76_cc1352p7_room",
    "Verif.Props.Large.C76_cc1352p7_reachable",
    "Verif.Props.Large.C76_cc1352p7_rescue",
    "Verif.Props.Large.C76_espressif_datagram",
    "Verif.Props.Large.C76_espressif_lost"
   ],
   "note": "The reachable cases use a receive buffer of 80 places and one burst of 78 bytes at a chosen access to the serial buffers. For datagrams the driver may still send one command that was due."
  },
  {
   "property": "C77",
   "status": "proved",
   "theorems": [
    "Verif.Props.Served.C77_sim7x00",
    "Verif.Props.Served.C77_sim7x00_flood",
    "Verif.Props.Served.C77_sim800",
    "Verif.Props.Served.C77_sim800_flood",
    "Verif.Props.Served.C77_espressif",
    "Verif.Props.Served.C77_espressif_flood",
    "Verif.Props.Served.C77_cc1352p7",
    "Verif.Props.Served.C77_cc1352p7_flood"
   ],
   "note": "Espressif with TCP only. The bound on k comes from the places a data request leaves free in the receive buffer."
  },
  {
   "property": "C78",
   "status": "proved",
   "theorems": [
    "Verif.Props.Pace.C78_period",
    "Verif.Props.Pace.C78_sim7x00_delay",
    "Verif.Props.Pace.C78_sim7x00_reaction",
    "Verif.Props.Pace.C78_sim800_delay",
    "Verif.Props.Pace.C78_sim800_reaction",
    "Verif.Props.Pace.C78_espressif_delay",
    "Verif.Props.Pace.C78_espressif_reaction",
    "Verif.Props.Pace.C78_cc1352p7_delay",
    "Verif.Props.Pace.C78_cc1352p7_reaction",
    "Verif.Props.Pace.C78_sim7x00_boot"
   ],
   "note": "Interrupts and calls from outside the tasks count as part of the next task that is run."
  },
  {
   "property": "C79",
   "status": "proved",
   "theorems": [
    "Verif.Props.Budget.C79_sim7x00_openings",
    "Verif.Props.Budget.C79_sim7x00_twice",
    "Verif.Props.Budget.C79_sim7x00_revoked",
    "Verif.Props.Budget.C79_sim800_openings",
    "Verif.Props.Budget.C79_sim800_twice",
    "Verif.Props.Budget.C79_sim800_revoked",
    "Verif.Props.Budget.C79_espressif_openings",
    "Verif.Props.Budget.C79_espressif_twice",
    "Verif.Props.Budget.C79_espressif_revoked",
    "Verif.Props.Budget.C79_cc1352p7_openings",
    "Verif.Props.Budget.C79_cc1352p7_twice",
    "Verif.Props.Budget.C79_cc1352p7_revoked"
   ],
   "note": "A failure is a line that begins with one of the given texts, whether or not the driver reacts to it."
  },
  {
   "property": "C80",
   "status": "proved",
   "theorems": [
    "Verif.Props.Ended.C80_sim7x00_idle",
    "Verif.Props.Ended.C80_sim7x00_since",
    "Verif.Props.Ended.C80_sim800_idle",
    "Verif.Props.Ended.C80_sim800_since",
    "Verif.Props.Ended.C80_espressif_idle",
    "Verif.Props.Ended.C80_espressif_since",
    "Verif.Props.Ended.C80_cc1352p7_idle",
    "Verif.Props.Ended.C80_cc1352p7_since",
    "Verif.Props.Ended.C80_sim7x00_unconfirmed",
    "Verif.Props.Ended.C80_sim800_forgotten",
    "Verif.Props.Ended.C80_cc1352p7_again"
   ],
   "note": "Lines are counted that begin with one of these texts, see Spec/Ended.lean."
  },
  {
   "property": "C81",
   "status": "proved",
   "theorems": [
    "Verif.Props.Clock.C81_linux_accuracy",
    "Verif.Props.Clock.C81_linux_elapsed",
    "Verif.Props.Clock.C81_linux_delay",
    "Verif.Props.Clock.C81_linux_due",
    "Verif.Props.Clock.C81_linux_early",
    "Verif.Props.Clock.C81_none"
   ],
   "note": "Readings whose milliseconds are at most 2^53, which a double represents exactly."
  },
  {
   "property": "C82",
   "status": "proved",
   "theorems": [
    "Verif.Props.Datagrams.C82_espressif_inorder",
    "Verif.Props.Datagrams.C82_espressif_delivered",
    "Verif.Props.Datagrams.C82_espressif_hollow",
    "Verif.Props.Datagrams.C82_espressif_lost"
   ],
   "note": "The application does not write meanwhile (C48: that can be the end). Other lines have no colon and none of the meanings of the driver."
  },
  {
   "property": "C83",
   "status": "proved",
   "theorems": [
    "Verif.Props.Thread.C83_thread",
    "Verif.Props.Thread.C83_determined",
    "Verif.Props.Thread.C83_end",
    "Verif.Props.Thread.C83_return",
    "Verif.Props.Thread.C83_break",
    "Verif.Props.Thread.C83_unbraced"
   ],
   "note": "The numbers of the macros differ and are below 256 (else C20). Variables of run() itself are not modelled; they must not be used across macros."
  },
  {
   "property": "C84",
   "status": "proved",
   "theorems": [
    "Verif.Props.Linux.C84_sim7x00",
    "Verif.Props.Linux.C84_sim7x00_connected",
    "Verif.Props.Linux.C84_sim800",
    "Verif.Props.Linux.C84_espressif",
    "Verif.Props.Linux.C84_cc1352p7",
    "Verif.Props.Linux.C84_sim7x00_asleep"
   ],
   "note": "Conditions as in C77: 20 free places in the transmit buffer when run() is called, a modem that sends no more payload than asked for and no empty block. Espressif: TCP."
  },
  {
   "property": "C85",
   "status": "proved",
   "theorems": [
    "Verif.Props.Client.C85_order",
    "Verif.Props.Client.C85_sim7x00",
    "Verif.Props.Client.C85_sim800",
    "Verif.Props.Client.C85_espressif",
    "Verif.Props.Client.C85_cc1352p7",
    "Verif.Props.Client.C85_sessions",
    "Verif.Props.Client.C85_silent_sim7x00",
    "Verif.Props.Client.C85_silent_sim800",
    "Verif.Props.Client.C85_silent_espressif",
    "Verif.Props.Client.C85_silent_cc1352p7",
    "Verif.Props.Client.C85_hangs",
    "Verif.Props.Client.C85_unread",
    "Verif.Props.Client.C85_zero"
   ],
   "note": "The scheduler runs the tasks in turn (C17, C19), and a task that waits has delay 0, so a driver is run once between two turns of the task unless the application runs it elsewhere. The detector is a flag that may change at any time; getDetectedModem() hands over a driver with any history (the detector itself: C50, C71)."
  },
  {
   "property": "C86",
   "status": "proved",
   "theorems": [
    "Verif.Props.Program.C86_program",
    "Verif.Props.Program.C86_returns",
    "Verif.Props.Program.C86_bodies",
    "Verif.Props.Program.C86_session"
   ],
   "note": "The run() functions are given by Bodied: the task by its expanded text, the detector and the serial device by their models. C86_bodies shows that such functions exist. A driver is run once between two turns of the task because the scheduler goes round and the task has delay 0; this discharges the assumption of C85. System calls of UnixSerial are the environment: a byte or none in each direction per call."
  },
  {
   "property": "C87",
   "status": "proved",
   "theorems": [
    "Verif.Props.Ntp.C87_returns",
    "Verif.Props.Ntp.C87_ends",
    "Verif.Props.Ntp.C87_verdict",
    "Verif.Props.Ntp.C87_patience",
    "Verif.Props.Ntp.C87_time",
    "Verif.Props.Ntp.C87_short",
    "Verif.Props.Ntp.C87_passes"
   ],
   "note": "exit() is the end of the task in the model. The detector and driver are any values of the interface Client.Api; C87_passes uses the driver of the CC1352P7. Byte order of the host is that of a PC. main() with its arguments is not modelled."
  },
  {
   "property": "C88",
   "status": "proved",
   "theorems": [
    "Verif.Props.Mbed.C88_armed",
    "Verif.Props.Mbed.C88_stream",
    "Verif.Props.Mbed.C88_accepts",
    "Verif.Props.Mbed.C88_drains",
    "Verif.Props.Mbed.C88_off",
    "Verif.Props.Mbed.C88_hears",
    "Verif.Props.Mbed.C88_always_open",
    "Verif.Props.Mbed.C88_config",
    "Verif.Props.Mbed.C88_clock",
    "Verif.Props.Mbed.C88_delay",
    "Verif.Props.Mbed.C88_due",
    "Verif.Props.Mbed.C88_early"
   ],
   "note": "mbedserial.cpp:99 calls a function that does not exist; it is read as bytesAvailable(). mbed itself is an assumption (Model/Mbed.lean). C88_stream and C88_drains are about the sized writes: write(uint8_t) does not check for space (C51)."
  },
  {
   "property": "C89",
   "status": "proved",
   "theorems": [
    "Verif.Props.EventLoop.C89_rules",
    "Verif.Props.EventLoop.C89_left",
    "Verif.Props.EventLoop.C89_complete",
    "Verif.Props.EventLoop.C89_cut",
    "Verif.Props.EventLoop.C89_scheduler",
    "Verif.Props.EventLoop.C89_linux"
   ],
   "note": "runTask() is any sequence of interrupts and at most one run of the detector. C89_cut has all bytes of the answer in the serial buffer when the driver is run, as may happen on the STM32; on Linux, where a byte is moved in every second turn, the driver seldom finds more than one byte and such a loss is not shown."
  },
  {
   "property": "C90",
   "status": "proved",
   "theorems": [
    "Verif.Props.BlockingProgram.C90_order",
    "Verif.Props.BlockingProgram.C90_silence",
    "Verif.Props.BlockingProgram.C90_integrity",
    "Verif.Props.BlockingProgram.C90_pace",
    "Verif.Props.BlockingProgram.C90_mute",
    "Verif.Props.BlockingProgram.C90_pause"
   ],
   "note": "Partial correctness: each loop of the program has a number of turns as parameter, and C90_order and C90_integrity speak of executions that have ended. C90_pause is a session byte by byte, evaluated in the kernel."
  },
  {
   "property": "C91",
   "status": "proved",
   "theorems": [
    "Verif.Props.SerialTask.C91_task",
    "Verif.Props.SerialTask.C91_program",
    "Verif.Props.SerialTask.C91_pace",
    "Verif.Props.SerialTask.C91_returns",
    "Verif.Props.SerialTask.C91_bodies",
    "Verif.Props.SerialTask.C91_split",
    "Verif.Props.SerialTask.C91_mute"
   ],
   "note": "exit(1) does not return: the rest of run() is in the other branch in the model. What setSerialConfig() and open() answer is a parameter."
  },
  {
   "property": "C92",
   "status": "proved",
   "theorems": [
    "Verif.Props.Counted.C92_drivers",
    "Verif.Props.Counted.C92_order",
    "Verif.Props.Counted.C92_limit",
    "Verif.Props.Counted.C92_bounded",
    "Verif.Props.Counted.C92_pace",
    "Verif.Props.Counted.C92_kinds",
    "Verif.Props.Counted.C92_prints",
    "Verif.Props.Counted.C92_returns",
    "Verif.Props.Counted.C92_impatient",
    "Verif.Props.Counted.C92_long",
    "Verif.Props.Counted.C92_mute"
   ],
   "note": "One model with a parameter for the differences of the two examples. The port the STM32 prints to is not modelled. The FreeRTOS example has the same loop but is no task of the library; it is not modelled."
  },
  {
   "property": "C93",
   "status": "proved",
   "theorems": [
    "Verif.Props.TwoTasks.C93_order",
    "Verif.Props.TwoTasks.C93_spaced",
    "Verif.Props.TwoTasks.C93_prompt_one",
    "Verif.Props.TwoTasks.C93_prompt_two",
    "Verif.Props.TwoTasks.C93_bodies"
   ],
   "note": "The text of the messages is replaced by names."
  },
  {
   "property": "C94",
   "status": "proved",
   "theorems": [
    "Verif.Props.Sequence.C94_packets",
    "Verif.Props.Sequence.C94_spaced",
    "Verif.Props.Sequence.C94_prompt",
    "Verif.Props.Sequence.C94_stall",
    "Verif.Props.Sequence.C94_never",
    "Verif.Props.Sequence.C94_repeat"
   ],
   "note": "The MQTT client is not in the repository: the durations of its calls are parameters, and its effects are not modelled. Time passes in its calls only. The packet number is stored through a cast pointer; alignment and aliasing are not modelled."
  },
  {
   "property": "C95",
   "status": "proved",
   "theorems": [
    "Verif.Props.NtpClient.C95_order",
    "Verif.Props.NtpClient.C95_drivers",
    "Verif.Props.NtpClient.C95_time",
    "Verif.Props.NtpClient.C95_short",
    "Verif.Props.NtpClient.C95_mute",
    "Verif.Props.NtpClient.C95_returns",
    "Verif.Props.NtpClient.C95_swap"
   ],
   "note": "The order of the bytes in memory is that of a PC and of the STM32. The position of memset among the calls is that of the Linux example."
  },
  {
   "property": "C96",
   "status": "proved",
   "theorems": [
    "Verif.Props.UnixSerial.C96_out",
    "Verif.Props.UnixSerial.C96_in",
    "Verif.Props.UnixSerial.C96_in_all",
    "Verif.Props.UnixSerial.C96_closed",
    "Verif.Props.UnixSerial.C96_moves",
    "Verif.Props.UnixSerial.C96_kept",
    "Verif.Props.UnixSerial.C96_half",
    "Verif.Props.UnixSerial.C96_stale"
   ],
   "note": "The operating system is an input queue and an answer to each ::write; see the head of Model/UnixSerial.lean."
  },
  {
   "property": "C97",
   "status": "proved",
   "theorems": [
    "Verif.Props.Printf.C97_fits",
    "Verif.Props.Printf.C97_over"
   ],
   "note": "The bytes printf makes of its arguments are not modelled: a text is what it hands to _putchar()."
  },
  {
   "property": "C98",
   "status": "proved",
   "theorems": [
    "Verif.Props.MqttHello.C98_text",
    "Verif.Props.MqttHello.C98_each",
    "Verif.Props.MqttHello.C98_lost",
    "Verif.Props.MqttHello.C98_foreign",
    "Verif.Props.MqttHello.C98_failed"
   ],
   "note": "The MQTT client is not part of the repository; it is a parameter."
  },
  {
   "property": "C99",
   "status": "proved",
   "theorems": [
    "Verif.Props.Confirmed.C99_sim7x00",
    "Verif.Props.Confirmed.C99_sim800",
    "Verif.Props.Confirmed.C99_espressif",
    "Verif.Props.Confirmed.C99_cc1352p7",
    "Verif.Props.Confirmed.C99_sim7x00_failed"
   ],
   "note": "C99_sim7x00_failed is the witness for the refuted expectation."
  }
 ]
}