# Axioms each theorem depends on

Output of `collectAxioms` (what `#print axioms` shows) for every theorem named in MANIFEST.json.
The three that occur are axioms of Lean itself; the development adds none.

## none

* `Gevulot.CliModel.C61_refuted`

## `propext`

* `Gevulot.C06_standard_frame`
* `Gevulot.C06_startup_frame`
* `Gevulot.C22_absent`
* `Gevulot.C22_first`
* `Gevulot.CliModel.C58_help`
* `Gevulot.CliModel.C59_bad`
* `Gevulot.CliModel.C61_partial`
* `Gevulot.CliModel.C65_refuted`
* `Gevulot.CliModel.C65_refuted_replace`
* `Gevulot.CliModel.C66_refuted`
* `Gevulot.CliModel.C66_refuted_truncate`
* `Gevulot.DistributorLog.C113_all`
* `Gevulot.DistributorModel.C47_refuted`
* `Gevulot.DistributorModel.C47_refuted_second`
* `Gevulot.DistributorModel.C47_refuted_update`
* `Gevulot.EventModel.C42_forever`
* `Gevulot.FileWatcherModel.C78_which`
* `Gevulot.FileWatcherModel.C89_partial_done`
* `Gevulot.InspectorModel.C95`
* `Gevulot.ServerLog.C110_all`
* `Gevulot.ServerLog.C110_failed`
* `Gevulot.ServerLog.C110_old`
* `Gevulot.ServerLog.C110_server`
* `Gevulot.ServerModel.C52_refuted_state`
* `Gevulot.ServerModel.C53_refuted`
* `Gevulot.ServerModel.C53_refuted_conn`
* `Gevulot.ServerModel.C53_refuted_start`
* `Gevulot.ServerModel.C56_refuted`
* `Gevulot.ServerModel.C64_refuted`
* `Gevulot.SessionLog.C109_verbose`
* `Gevulot.WaitGroup.C86_refuted`
* `Gevulot.WaitGroup.C86_refuted_misuse`
* `Gevulot.WaitGroup.C86_refuted_reused`
* `Gevulot.WatchLog.C112_fails`

## `Quot.sound`, `propext`

* `Gevulot.C01_writeIntArrays`
* `Gevulot.C04_readByte`
* `Gevulot.C05_overflow_never_ok`
* `Gevulot.C10_refuted`
* `Gevulot.C13_wrong_type`
* `Gevulot.C17_encode`
* `Gevulot.C17_short`
* `Gevulot.C19_refuted`
* `Gevulot.C22_empty_iff`
* `Gevulot.CliModel.C58`
* `Gevulot.CliModel.C58_real`
* `Gevulot.CliModel.C58_server`
* `Gevulot.CliModel.C66_partial`
* `Gevulot.DistributorLog.C113_dist`
* `Gevulot.FileWatcherModel.C78_serial`
* `Gevulot.FileWatcherModel.C80_refuted`
* `Gevulot.FileWatcherModel.C81_finite`
* `Gevulot.FileWatcherModel.C81_panic`
* `Gevulot.FileWatcherModel.C81_refuted`
* `Gevulot.FileWatcherModel.C81_refuted_second`
* `Gevulot.FileWatcherModel.C82_refuted`
* `Gevulot.FileWatcherModel.C82_refuted_lost`
* `Gevulot.FileWatcherModel.C89_cause`
* `Gevulot.FileWatcherModel.C89_refuted`
* `Gevulot.FileWatcherModel.C89_refuted_return`
* `Gevulot.InspectorModel.C62_partial_error`
* `Gevulot.InspectorModel.C63_partial_like`
* `Gevulot.InspectorModel.C95_methods`
* `Gevulot.ServerLock.C106_all`
* `Gevulot.ServerModel.C52_refuted`
* `Gevulot.ServerModel.C54_again`
* `Gevulot.ServerModel.C57_step`
* `Gevulot.SessionModel.C39_again`
* `Gevulot.SessionModel.C40_refuted_running`
* `Gevulot.SessionModel.C99_blocked`
* `Gevulot.WatchLog.C112_all`
* `Gevulot.WatchLog.C112_watch`

## `Classical.choice`, `Quot.sound`, `propext`

* `Gevulot.BufferInspect.C104`
* `Gevulot.BufferInspect.C104_inj`
* `Gevulot.C01_writeInt16`
* `Gevulot.C01_writeInt32`
* `Gevulot.C02_int16Array_roundtrip`
* `Gevulot.C02_int16_roundtrip`
* `Gevulot.C02_int32Array_roundtrip`
* `Gevulot.C02_int32_roundtrip`
* `Gevulot.C03_readString_fails_iff`
* `Gevulot.C03_readString_iff`
* `Gevulot.C03_string_cut`
* `Gevulot.C03_string_roundtrip`
* `Gevulot.C04_readBytes`
* `Gevulot.C04_readInt16`
* `Gevulot.C04_readInt16Array`
* `Gevulot.C04_readInt32`
* `Gevulot.C04_readInt32Array`
* `Gevulot.C04_readString`
* `Gevulot.C05_fixed_size`
* `Gevulot.C05_readBytes`
* `Gevulot.C05_readInt16Array`
* `Gevulot.C05_readInt16Array_any`
* `Gevulot.C05_readInt32Array`
* `Gevulot.C05_readInt32Array_any`
* `Gevulot.C06_length_field`
* `Gevulot.C07_read_sequence`
* `Gevulot.C07_read_standard`
* `Gevulot.C07_read_startup`
* `Gevulot.C08_segmentation_independent`
* `Gevulot.C09_truncated_standard`
* `Gevulot.C09_truncated_startup`
* `Gevulot.C10_partial`
* `Gevulot.C10_startup_partial`
* `Gevulot.C11_roundtrip`
* `Gevulot.C11_roundtrip_sequence`
* `Gevulot.C12_parser_grammar`
* `Gevulot.C14_hops`
* `Gevulot.C14_stable`
* `Gevulot.C14_stable_startup`
* `Gevulot.C15_exact_iff`
* `Gevulot.C15_known`
* `Gevulot.C15_unknown`
* `Gevulot.C16_description`
* `Gevulot.C16_description_conv`
* `Gevulot.C16_row`
* `Gevulot.C16_row_conv`
* `Gevulot.C17_decode`
* `Gevulot.C18_partial`
* `Gevulot.C18_refuted`
* `Gevulot.C19_recvMessage_only_partial`
* `Gevulot.C19_recvMessage_partial`
* `Gevulot.C19_recvStartupMessage_partial`
* `Gevulot.C20_partial`
* `Gevulot.C20_refuted`
* `Gevulot.C21_grammar`
* `Gevulot.C21_parse_frame`
* `Gevulot.C21_roundtrip`
* `Gevulot.C23_prefix_free`
* `Gevulot.C23_prefix_free_startup`
* `Gevulot.C23_unique_split`
* `Gevulot.C24_scheme`
* `Gevulot.C25_settings`
* `Gevulot.C26_order_independent`
* `Gevulot.C27_accepted`
* `Gevulot.C27_gate`
* `Gevulot.C27_url`
* `Gevulot.C28_exact_partial`
* `Gevulot.C28_partial`
* `Gevulot.C28_refuted`
* `Gevulot.C29_bytes`
* `Gevulot.C29_one_each`
* `Gevulot.C30_bytes`
* `Gevulot.C30_forwarded`
* `Gevulot.C31_asked_once`
* `Gevulot.C31_snapshot`
* `Gevulot.C32_consumes`
* `Gevulot.C32_finishes`
* `Gevulot.C32_unbounded`
* `Gevulot.CliModel.C58_message`
* `Gevulot.CliModel.C59`
* `Gevulot.CliModel.C60`
* `Gevulot.CliModel.C60_handled`
* `Gevulot.CliModel.C65_partial`
* `Gevulot.CliModel.C65_refuted_forever`
* `Gevulot.CliWatch.C103`
* `Gevulot.CliWatch.C103_bad`
* `Gevulot.CliWatch.C103_current`
* `Gevulot.CliWatch.C103_deaf`
* `Gevulot.CliWatch.C103_ended`
* `Gevulot.CliWatch.C103_finite`
* `Gevulot.CliWatch.C103_rest`
* `Gevulot.DistributorLock.C107`
* `Gevulot.DistributorLock.C107_all`
* `Gevulot.DistributorLock.C107_close`
* `Gevulot.DistributorLock.C107_delivered`
* `Gevulot.DistributorLock.C107_finite`
* `Gevulot.DistributorLock.C107_goes_on`
* `Gevulot.DistributorLock.C107_guarded`
* `Gevulot.DistributorLock.C107_mutex`
* `Gevulot.DistributorLock.C107_rest`
* `Gevulot.DistributorLock.C107_run`
* `Gevulot.DistributorLock.C107_snapshot`
* `Gevulot.DistributorLock.C107_unsubscribe`
* `Gevulot.DistributorLog.C113`
* `Gevulot.DistributorLog.C113_exited`
* `Gevulot.DistributorLog.C113_one`
* `Gevulot.DistributorLog.C113_rest`
* `Gevulot.DistributorLog.C113_source`
* `Gevulot.DistributorModel.C43`
* `Gevulot.DistributorModel.C43_rest`
* `Gevulot.DistributorModel.C43_seen`
* `Gevulot.DistributorModel.C44`
* `Gevulot.DistributorModel.C44_always`
* `Gevulot.DistributorModel.C44_asked`
* `Gevulot.DistributorModel.C44_no_panic`
* `Gevulot.DistributorModel.C44_rest`
* `Gevulot.DistributorModel.C44_subscribe`
* `Gevulot.DistributorModel.C44_unsubscribe`
* `Gevulot.DistributorModel.C45`
* `Gevulot.DistributorModel.C46`
* `Gevulot.DistributorModel.C46_again`
* `Gevulot.DistributorModel.C46_closed`
* `Gevulot.DistributorModel.C46_returns`
* `Gevulot.DistributorModel.C46_source`
* `Gevulot.DistributorModel.C47_partial`
* `Gevulot.DistributorModel.C48_finite`
* `Gevulot.DistributorModel.C48_get`
* `Gevulot.DistributorModel.C48_partial`
* `Gevulot.DistributorModel.C48_refuted`
* `Gevulot.DistributorModel.C48_refuted_monitor`
* `Gevulot.DistributorModel.C48_rest`
* `Gevulot.DistributorModel.C48_waits`
* `Gevulot.DistributorModel.C49`
* `Gevulot.DistributorModel.C49_order`
* `Gevulot.EventModel.C41_at_most_one`
* `Gevulot.EventModel.C41_no_panic`
* `Gevulot.EventModel.C41_one`
* `Gevulot.EventModel.C41_progress`
* `Gevulot.EventModel.C42_done_fired`
* `Gevulot.EventModel.C42_not_before`
* `Gevulot.EventModel.C42_visible`
* `Gevulot.FileWatcherModel.C78`
* `Gevulot.FileWatcherModel.C78_end`
* `Gevulot.FileWatcherModel.C78_rest`
* `Gevulot.FileWatcherModel.C79`
* `Gevulot.FileWatcherModel.C79_closed`
* `Gevulot.FileWatcherModel.C79_rest`
* `Gevulot.FileWatcherModel.C80_partial`
* `Gevulot.FileWatcherModel.C80_stays`
* `Gevulot.FileWatcherModel.C81_partial`
* `Gevulot.FileWatcherModel.C81_safe`
* `Gevulot.FileWatcherModel.C81_stop_partial`
* `Gevulot.FileWatcherModel.C82_never`
* `Gevulot.FileWatcherModel.C82_partial`
* `Gevulot.FileWatcherModel.C82_printed_partial`
* `Gevulot.FileWatcherModel.C89_partial`
* `Gevulot.FileWatcherModel.C89_partial_once`
* `Gevulot.FullSession.C37_refuted_full`
* `Gevulot.FullSession.C38_refuted_full`
* `Gevulot.FullSession.C40_refuted_full`
* `Gevulot.FullSession.C67_client`
* `Gevulot.FullSession.C67_db`
* `Gevulot.FullSession.C68_client`
* `Gevulot.FullSession.C68_complete`
* `Gevulot.FullSession.C68_db`
* `Gevulot.FullSession.C68_rest`
* `Gevulot.FullSession.C69`
* `Gevulot.FullSession.C69_finite`
* `Gevulot.FullSession.C69_rest`
* `Gevulot.FullSession.C83`
* `Gevulot.FullSession.C88_partial`
* `Gevulot.FullSession.C88_partial_own`
* `Gevulot.FullSession.C88_refuted`
* `Gevulot.FullSession.C92_partial`
* `Gevulot.FullSession.C92_refuted`
* `Gevulot.FullSession.C93_partial`
* `Gevulot.FullSession.C93_refuted`
* `Gevulot.FullSession.C94_partial`
* `Gevulot.FullSession.C94_refuted`
* `Gevulot.FullSession.C98`
* `Gevulot.FullSession.C98_all`
* `Gevulot.FullSession.C98_closed`
* `Gevulot.FullSession.C98_outside`
* `Gevulot.FullSession.C98_program`
* `Gevulot.FullSession.C98_server`
* `Gevulot.FullSession.C98_timing`
* `Gevulot.InspectorModel.C62_partial`
* `Gevulot.InspectorModel.C62_refuted`
* `Gevulot.InspectorModel.C63_partial`
* `Gevulot.InspectorModel.C63_partial_mapping`
* `Gevulot.InspectorModel.C63_partial_system`
* `Gevulot.InspectorModel.C63_refuted`
* `Gevulot.InspectorModel.C63_refuted_partitioned`
* `Gevulot.LogModel.C90`
* `Gevulot.LogModel.C90_append`
* `Gevulot.LogModel.C90_session`
* `Gevulot.LogModel.C91_partial`
* `Gevulot.LogModel.C91_refuted`
* `Gevulot.LogModel.C91_refuted_text`
* `Gevulot.Pieces.C96`
* `Gevulot.Pieces.C96_all`
* `Gevulot.Pieces.C96_client`
* `Gevulot.Pieces.C96_complete`
* `Gevulot.Pieces.C96_db`
* `Gevulot.Pieces.C96_finite`
* `Gevulot.Pieces.C96_refused`
* `Gevulot.Pieces.C96_rest`
* `Gevulot.Pieces.C96_same_client`
* `Gevulot.Pieces.C96_same_db`
* `Gevulot.Process.C73`
* `Gevulot.Process.C73_begin`
* `Gevulot.Process.C73_end`
* `Gevulot.Process.C73_exit`
* `Gevulot.Process.C74`
* `Gevulot.Process.C74_told`
* `Gevulot.Process.C75`
* `Gevulot.Process.C75_finite`
* `Gevulot.Process.C75_free`
* `Gevulot.Process.C75_rest`
* `Gevulot.Process.C76`
* `Gevulot.Process.C76_file`
* `Gevulot.Process.C76_same`
* `Gevulot.Process.C76_stays`
* `Gevulot.Process.C77`
* `Gevulot.Process.C77_fresh`
* `Gevulot.Process.C77_rest`
* `Gevulot.Process.C84`
* `Gevulot.Process.C84_file`
* `Gevulot.Process.C85`
* `Gevulot.Process.C85_rest`
* `Gevulot.Process.C85_same`
* `Gevulot.Program.C105`
* `Gevulot.Program.C105_current`
* `Gevulot.Program.C105_db`
* `Gevulot.Program.C105_delivered`
* `Gevulot.Program.C105_end`
* `Gevulot.Program.C105_finite`
* `Gevulot.Program.C105_listen`
* `Gevulot.Program.C105_served`
* `Gevulot.Program.C105_session`
* `Gevulot.Program.C105_uri`
* `Gevulot.Program.C112_program`
* `Gevulot.ServerLock.C106`
* `Gevulot.ServerLock.C106_close`
* `Gevulot.ServerLock.C106_finite`
* `Gevulot.ServerLock.C106_goes_on`
* `Gevulot.ServerLock.C106_mutex`
* `Gevulot.ServerLock.C106_one`
* `Gevulot.ServerLock.C106_rest`
* `Gevulot.ServerLock.C106_run`
* `Gevulot.ServerLog.C110`
* `Gevulot.ServerLog.C110_accept`
* `Gevulot.ServerLog.C110_close`
* `Gevulot.ServerLog.C110_closing`
* `Gevulot.ServerLog.C110_conn`
* `Gevulot.ServerLog.C110_idle`
* `Gevulot.ServerLog.C110_serve`
* `Gevulot.ServerLog.C110_session`
* `Gevulot.ServerModel.C50`
* `Gevulot.ServerModel.C50_closed`
* `Gevulot.ServerModel.C50_runs`
* `Gevulot.ServerModel.C51`
* `Gevulot.ServerModel.C51_one`
* `Gevulot.ServerModel.C52_finite`
* `Gevulot.ServerModel.C52_partial`
* `Gevulot.ServerModel.C52_partial_address`
* `Gevulot.ServerModel.C52_rest`
* `Gevulot.ServerModel.C52_tried`
* `Gevulot.ServerModel.C53_partial`
* `Gevulot.ServerModel.C53_partial_before`
* `Gevulot.ServerModel.C53_partial_start`
* `Gevulot.ServerModel.C54`
* `Gevulot.ServerModel.C54_finite`
* `Gevulot.ServerModel.C54_one`
* `Gevulot.ServerModel.C54_rest`
* `Gevulot.ServerModel.C54_returns`
* `Gevulot.ServerModel.C55`
* `Gevulot.ServerModel.C55_close`
* `Gevulot.ServerModel.C55_once`
* `Gevulot.ServerModel.C56_partial`
* `Gevulot.ServerModel.C57`
* `Gevulot.ServerModel.C64_partial`
* `Gevulot.ServerModel.C64_partial_refused`
* `Gevulot.ServerModel.C64_partial_served`
* `Gevulot.SessionLog.C108`
* `Gevulot.SessionLog.C108_log`
* `Gevulot.SessionLog.C108_wait`
* `Gevulot.SessionLog.C109`
* `Gevulot.SessionLog.C109_all`
* `Gevulot.SessionLog.C109_close`
* `Gevulot.SessionLog.C109_printed`
* `Gevulot.SessionLog.C109_relay`
* `Gevulot.SessionLog.C109_session`
* `Gevulot.SessionModel.C33`
* `Gevulot.SessionModel.C34`
* `Gevulot.SessionModel.C34_finite`
* `Gevulot.SessionModel.C35`
* `Gevulot.SessionModel.C35_total`
* `Gevulot.SessionModel.C36`
* `Gevulot.SessionModel.C37_only_close`
* `Gevulot.SessionModel.C37_partial`
* `Gevulot.SessionModel.C37_refuted`
* `Gevulot.SessionModel.C38_cause`
* `Gevulot.SessionModel.C38_close`
* `Gevulot.SessionModel.C38_partial`
* `Gevulot.SessionModel.C38_refuted`
* `Gevulot.SessionModel.C39_client`
* `Gevulot.SessionModel.C39_db`
* `Gevulot.SessionModel.C39_once`
* `Gevulot.SessionModel.C39_progress`
* `Gevulot.SessionModel.C40_partial`
* `Gevulot.SessionModel.C40_refuted`
* `Gevulot.SessionModel.C99_partial`
* `Gevulot.SessionModel.C99_refuted`
* `Gevulot.SessionModel.C99_refuted_forever`
* `Gevulot.System.C70_closed`
* `Gevulot.System.C70_finite`
* `Gevulot.System.C70_hanging`
* `Gevulot.System.C70_missed`
* `Gevulot.System.C70_partial`
* `Gevulot.System.C70_refuted`
* `Gevulot.System.C70_refuted_dialling`
* `Gevulot.System.C70_wait_partial`
* `Gevulot.System.C71_partial`
* `Gevulot.System.C71_refuted`
* `Gevulot.System.C71_refuted_other`
* `Gevulot.System.C72`
* `Gevulot.System.C72_client`
* `Gevulot.System.C72_db`
* `Gevulot.System.C72_independent`
* `Gevulot.System.C99_others`
* `Gevulot.SystemLog.C111`
* `Gevulot.SystemLog.C111_all`
* `Gevulot.SystemLog.C111_log`
* `Gevulot.SystemLog.C111_one`
* `Gevulot.SystemLog.C111_session`
* `Gevulot.SystemLog.C111_silent`
* `Gevulot.URLModel.C100_partial`
* `Gevulot.URLModel.C100_refuted`
* `Gevulot.URLModel.C100_refuted_dbname`
* `Gevulot.URLModel.C100_refuted_plus`
* `Gevulot.URLModel.C100_refuted_semicolon`
* `Gevulot.URLModel.C100_refuted_slash`
* `Gevulot.URLModel.C100_refuted_socket`
* `Gevulot.URLModel.C100_refuted_user`
* `Gevulot.URLModel.C101_partial`
* `Gevulot.URLModel.C101_refuted`
* `Gevulot.URLModel.C101_refuted_opaque`
* `Gevulot.URLModel.C102`
* `Gevulot.WaitGroup.C86_cause`
* `Gevulot.WaitGroup.C86_partial`
* `Gevulot.WaitGroup.C86_partial_run`
* `Gevulot.WaitGroup.C87`
* `Gevulot.WaitGroup.C87_finite`
* `Gevulot.WaitGroup.C87_rest`
* `Gevulot.WaitGroup.C87_rest_server`
* `Gevulot.WaitGroup.C87_wait`
* `Gevulot.WatchLog.C112`
* `Gevulot.WatchLog.C112_first`
* `Gevulot.WatchLog.C112_none`
* `Gevulot.WatchLog.C112_said`
* `Gevulot.WatchLog.C112_told`
* `Gevulot.Whole.C97`
* `Gevulot.Whole.C97_all`
* `Gevulot.Whole.C97_db`
* `Gevulot.Whole.C97_delivered`
* `Gevulot.Whole.C97_end`
* `Gevulot.Whole.C97_finite`
* `Gevulot.Whole.C97_served`
* `Gevulot.Whole.C97_session`
