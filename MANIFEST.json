{
 "claims": [
  {
   "property": "C01",
   "status": "proved",
   "theorems": [
    "Gevulot.C01_writeInt32",
    "Gevulot.C01_writeInt16",
    "Gevulot.C01_writeIntArrays"
   ],
   "note": ""
  },
  {
   "property": "C02",
   "status": "proved",
   "theorems": [
    "Gevulot.C02_int32_roundtrip",
    "Gevulot.C02_int16_roundtrip",
    "Gevulot.C02_int32Array_roundtrip",
    "Gevulot.C02_int16Array_roundtrip"
   ],
   "note": ""
  },
  {
   "property": "C03",
   "status": "proved",
   "theorems": [
    "Gevulot.C03_readString_iff",
    "Gevulot.C03_readString_fails_iff",
    "Gevulot.C03_string_roundtrip",
    "Gevulot.C03_string_cut"
   ],
   "note": ""
  },
  {
   "property": "C04",
   "status": "proved",
   "theorems": [
    "Gevulot.C04_readBytes",
    "Gevulot.C04_readByte",
    "Gevulot.C04_readInt32",
    "Gevulot.C04_readInt16",
    "Gevulot.C04_readString",
    "Gevulot.C04_readInt32Array",
    "Gevulot.C04_readInt16Array"
   ],
   "note": ""
  },
  {
   "property": "C05",
   "status": "proved",
   "theorems": [
    "Gevulot.C05_readBytes",
    "Gevulot.C05_fixed_size",
    "Gevulot.C05_readInt32Array",
    "Gevulot.C05_readInt16Array",
    "Gevulot.C05_readInt32Array_any",
    "Gevulot.C05_readInt16Array_any",
    "Gevulot.C05_overflow_never_ok"
   ],
   "note": ""
  },
  {
   "property": "C06",
   "status": "proved",
   "theorems": [
    "Gevulot.C06_standard_frame",
    "Gevulot.C06_startup_frame",
    "Gevulot.C06_length_field"
   ],
   "note": ""
  },
  {
   "property": "C07",
   "status": "proved",
   "theorems": [
    "Gevulot.C07_read_standard",
    "Gevulot.C07_read_startup",
    "Gevulot.C07_read_sequence"
   ],
   "note": ""
  },
  {
   "property": "C08",
   "status": "proved",
   "theorems": [
    "Gevulot.C08_segmentation_independent"
   ],
   "note": ""
  },
  {
   "property": "C09",
   "status": "proved",
   "theorems": [
    "Gevulot.C09_truncated_standard",
    "Gevulot.C09_truncated_startup"
   ],
   "note": ""
  },
  {
   "property": "C10",
   "status": "partial",
   "theorems": [
    "Gevulot.C10_refuted",
    "Gevulot.C10_partial",
    "Gevulot.C10_startup_partial"
   ],
   "note": "False as stated: a length field below 4 is accepted as an empty body (C10_refuted). C10_partial, C10_startup_partial: exactly what the code does with every such length."
  },
  {
   "property": "C11",
   "status": "proved",
   "theorems": [
    "Gevulot.C11_roundtrip",
    "Gevulot.C11_roundtrip_sequence"
   ],
   "note": ""
  },
  {
   "property": "C12",
   "status": "proved",
   "theorems": [
    "Gevulot.C12_parser_grammar"
   ],
   "note": ""
  },
  {
   "property": "C13",
   "status": "proved",
   "theorems": [
    "Gevulot.C13_wrong_type"
   ],
   "note": ""
  },
  {
   "property": "C14",
   "status": "proved",
   "theorems": [
    "Gevulot.C14_stable",
    "Gevulot.C14_stable_startup",
    "Gevulot.C14_hops"
   ],
   "note": ""
  },
  {
   "property": "C15",
   "status": "proved",
   "theorems": [
    "Gevulot.C15_known",
    "Gevulot.C15_unknown",
    "Gevulot.C15_exact_iff"
   ],
   "note": ""
  },
  {
   "property": "C16",
   "status": "proved",
   "theorems": [
    "Gevulot.C16_row",
    "Gevulot.C16_row_conv",
    "Gevulot.C16_description",
    "Gevulot.C16_description_conv"
   ],
   "note": ""
  },
  {
   "property": "C17",
   "status": "proved",
   "theorems": [
    "Gevulot.C17_decode",
    "Gevulot.C17_short",
    "Gevulot.C17_encode"
   ],
   "note": ""
  },
  {
   "property": "C18",
   "status": "partial",
   "theorems": [
    "Gevulot.C18_refuted",
    "Gevulot.C18_partial"
   ],
   "note": "False of the code for every such message: RecvMessage hands 'v' frames to the NoticeResponse parser (conn.go:40-41). C18_partial: the message's own parser is right."
  },
  {
   "property": "C19",
   "status": "partial",
   "theorems": [
    "Gevulot.C19_refuted",
    "Gevulot.C19_recvMessage_partial",
    "Gevulot.C19_recvMessage_only_partial",
    "Gevulot.C19_recvStartupMessage_partial"
   ],
   "note": "False: DataRow / RowDescription with a negative count, or a value size below -1, panic (C19_refuted). C19_*_partial: exactly which frames do, and that RecvStartupMessage never does."
  },
  {
   "property": "C20",
   "status": "partial",
   "theorems": [
    "Gevulot.C20_refuted",
    "Gevulot.C20_partial"
   ],
   "note": "False from 32768 columns on (int16 wrap-around); C20_partial gives the exact limit."
  },
  {
   "property": "C21",
   "status": "proved",
   "theorems": [
    "Gevulot.C21_roundtrip",
    "Gevulot.C21_parse_frame",
    "Gevulot.C21_grammar"
   ],
   "note": ""
  },
  {
   "property": "C22",
   "status": "proved",
   "theorems": [
    "Gevulot.C22_first",
    "Gevulot.C22_absent",
    "Gevulot.C22_empty_iff"
   ],
   "note": ""
  },
  {
   "property": "C23",
   "status": "proved",
   "theorems": [
    "Gevulot.C23_prefix_free",
    "Gevulot.C23_prefix_free_startup",
    "Gevulot.C23_unique_split"
   ],
   "note": ""
  },
  {
   "property": "C24",
   "status": "proved",
   "theorems": [
    "Gevulot.C24_scheme"
   ],
   "note": ""
  },
  {
   "property": "C25",
   "status": "proved",
   "theorems": [
    "Gevulot.C25_settings"
   ],
   "note": ""
  },
  {
   "property": "C26",
   "status": "proved",
   "theorems": [
    "Gevulot.C26_order_independent"
   ],
   "note": ""
  },
  {
   "property": "C27",
   "status": "proved",
   "theorems": [
    "Gevulot.C27_gate",
    "Gevulot.C27_accepted",
    "Gevulot.C27_url"
   ],
   "note": ""
  },
  {
   "property": "C28",
   "status": "partial",
   "theorems": [
    "Gevulot.C28_refuted",
    "Gevulot.C28_partial",
    "Gevulot.C28_exact_partial"
   ],
   "note": "False: the check looks at the first 'database' parameter, PostgreSQL uses the last (C28_refuted). C28_partial: true for clients naming at most one database. C28_exact_partial: exactly which clients that are let in end up in the configured database."
  },
  {
   "property": "C29",
   "status": "proved",
   "theorems": [
    "Gevulot.C29_one_each",
    "Gevulot.C29_bytes"
   ],
   "note": ""
  },
  {
   "property": "C30",
   "status": "proved",
   "theorems": [
    "Gevulot.C30_forwarded",
    "Gevulot.C30_bytes"
   ],
   "note": ""
  },
  {
   "property": "C31",
   "status": "proved",
   "theorems": [
    "Gevulot.C31_asked_once",
    "Gevulot.C31_snapshot"
   ],
   "note": ""
  },
  {
   "property": "C32",
   "status": "proved",
   "theorems": [
    "Gevulot.C32_finishes",
    "Gevulot.C32_unbounded",
    "Gevulot.C32_consumes"
   ],
   "note": ""
  },
  {
   "property": "C33",
   "status": "proved",
   "theorems": [
    "Gevulot.SessionModel.C33"
   ],
   "note": ""
  },
  {
   "property": "C34",
   "status": "proved",
   "theorems": [
    "Gevulot.SessionModel.C34",
    "Gevulot.SessionModel.C34_finite"
   ],
   "note": ""
  },
  {
   "property": "C35",
   "status": "proved",
   "theorems": [
    "Gevulot.SessionModel.C35",
    "Gevulot.SessionModel.C35_total"
   ],
   "note": ""
  },
  {
   "property": "C36",
   "status": "proved",
   "theorems": [
    "Gevulot.SessionModel.C36"
   ],
   "note": ""
  },
  {
   "property": "C37",
   "status": "partial",
   "theorems": [
    "Gevulot.FullSession.C37_refuted_full",
    "Gevulot.SessionModel.C37_only_close",
    "Gevulot.SessionModel.C37_refuted",
    "Gevulot.SessionModel.C37_partial"
   ],
   "note": "False: once the goroutines run, Start returns only if somebody calls Close (C37_only_close, C37_refuted, and with the whole handshake C37_refuted_full). C37_partial: after Close, Start returns and both connections are closed."
  },
  {
   "property": "C38",
   "status": "partial",
   "theorems": [
    "Gevulot.FullSession.C38_refuted_full",
    "Gevulot.SessionModel.C38_refuted",
    "Gevulot.SessionModel.C38_cause",
    "Gevulot.SessionModel.C38_close",
    "Gevulot.SessionModel.C38_partial"
   ],
   "note": "False: a goroutine with a message in hand sends on the channel Close has closed and the process panics (C38_refuted, C38_refuted_full). C38_cause lists every cause, C38_close: Close itself never panics, C38_partial: closing an idle session is safe."
  },
  {
   "property": "C39",
   "status": "proved",
   "theorems": [
    "Gevulot.SessionModel.C39_once",
    "Gevulot.SessionModel.C39_again",
    "Gevulot.SessionModel.C39_client",
    "Gevulot.SessionModel.C39_db",
    "Gevulot.SessionModel.C39_progress"
   ],
   "note": ""
  },
  {
   "property": "C40",
   "status": "partial",
   "theorems": [
    "Gevulot.FullSession.C40_refuted_full",
    "Gevulot.SessionModel.C40_partial",
    "Gevulot.SessionModel.C40_refuted",
    "Gevulot.SessionModel.C40_refuted_running"
   ],
   "note": "False: Close during the dial leaks the database connection (C40_refuted, C40_refuted_running, C40_refuted_full). C40_partial: true if Close was not called during the handshake."
  },
  {
   "property": "C41",
   "status": "proved",
   "theorems": [
    "Gevulot.EventModel.C41_at_most_one",
    "Gevulot.EventModel.C41_one",
    "Gevulot.EventModel.C41_no_panic",
    "Gevulot.EventModel.C41_progress"
   ],
   "note": ""
  },
  {
   "property": "C42",
   "status": "proved",
   "theorems": [
    "Gevulot.EventModel.C42_visible",
    "Gevulot.EventModel.C42_forever",
    "Gevulot.EventModel.C42_done_fired",
    "Gevulot.EventModel.C42_not_before"
   ],
   "note": ""
  },
  {
   "property": "C43",
   "status": "proved",
   "theorems": [
    "Gevulot.DistributorModel.C43",
    "Gevulot.DistributorModel.C43_seen",
    "Gevulot.DistributorModel.C43_rest"
   ],
   "note": ""
  },
  {
   "property": "C44",
   "status": "proved",
   "theorems": [
    "Gevulot.DistributorModel.C44",
    "Gevulot.DistributorModel.C44_always",
    "Gevulot.DistributorModel.C44_subscribe",
    "Gevulot.DistributorModel.C44_unsubscribe",
    "Gevulot.DistributorModel.C44_asked",
    "Gevulot.DistributorModel.C44_no_panic",
    "Gevulot.DistributorModel.C44_rest"
   ],
   "note": ""
  },
  {
   "property": "C45",
   "status": "proved",
   "theorems": [
    "Gevulot.DistributorModel.C45"
   ],
   "note": ""
  },
  {
   "property": "C46",
   "status": "proved",
   "theorems": [
    "Gevulot.DistributorModel.C46",
    "Gevulot.DistributorModel.C46_returns",
    "Gevulot.DistributorModel.C46_closed",
    "Gevulot.DistributorModel.C46_source",
    "Gevulot.DistributorModel.C46_again"
   ],
   "note": ""
  },
  {
   "property": "C47",
   "status": "partial",
   "theorems": [
    "Gevulot.DistributorModel.C47_partial",
    "Gevulot.DistributorModel.C47_refuted",
    "Gevulot.DistributorModel.C47_refuted_update",
    "Gevulot.DistributorModel.C47_refuted_second"
   ],
   "note": "False: a Subscribe that found the distributor open can register, and be sent configurations, after Close has returned (C47_refuted, C47_refuted_update); a second Close returns before the first has cancelled anything (C47_refuted_second). C47_partial: true of the first Close if no Subscribe is between its check and the lock."
  },
  {
   "property": "C48",
   "status": "partial",
   "theorems": [
    "Gevulot.DistributorModel.C48_partial",
    "Gevulot.DistributorModel.C48_waits",
    "Gevulot.DistributorModel.C48_get",
    "Gevulot.DistributorModel.C48_refuted",
    "Gevulot.DistributorModel.C48_refuted_monitor",
    "Gevulot.DistributorModel.C48_rest",
    "Gevulot.DistributorModel.C48_finite"
   ],
   "note": "False: two permanent deadlocks (C48_refuted, C48_refuted_monitor). C48_partial: these are exactly the situations from which the lock cannot be released; C48_waits, C48_get: outside them calls wait only for the lock, and a waiting Get can be served; C48_rest, C48_finite: after a bounded number of steps nothing is left to do, and then only these deadlocks, a full channel of a user, an open source or a Get without configuration are waited for."
  },
  {
   "property": "C49",
   "status": "proved",
   "theorems": [
    "Gevulot.DistributorModel.C49",
    "Gevulot.DistributorModel.C49_order"
   ],
   "note": ""
  },
  {
   "property": "C50",
   "status": "proved",
   "theorems": [
    "Gevulot.ServerModel.C50",
    "Gevulot.ServerModel.C50_closed",
    "Gevulot.ServerModel.C50_runs"
   ],
   "note": ""
  },
  {
   "property": "C51",
   "status": "proved",
   "theorems": [
    "Gevulot.ServerModel.C51",
    "Gevulot.ServerModel.C51_one"
   ],
   "note": ""
  },
  {
   "property": "C52",
   "status": "partial",
   "theorems": [
    "Gevulot.ServerModel.C52_tried",
    "Gevulot.ServerModel.C52_rest",
    "Gevulot.ServerModel.C52_finite",
    "Gevulot.ServerModel.C52_partial",
    "Gevulot.ServerModel.C52_partial_address",
    "Gevulot.ServerModel.C52_refuted",
    "Gevulot.ServerModel.C52_refuted_state"
   ],
   "note": "False: two Serve goroutines may install their listeners in the wrong order, and the server stays on the old address (C52_refuted). C52_tried: Start always gets to try the current address; C52_partial: true if Start never starts a Serve before the previous one has installed its listener."
  },
  {
   "property": "C53",
   "status": "partial",
   "theorems": [
    "Gevulot.ServerModel.C53_partial",
    "Gevulot.ServerModel.C53_partial_start",
    "Gevulot.ServerModel.C53_partial_before",
    "Gevulot.ServerModel.C53_refuted",
    "Gevulot.ServerModel.C53_refuted_conn",
    "Gevulot.ServerModel.C53_refuted_start"
   ],
   "note": "False in three ways: Serve or ServeConn between its check and the lock installs after Close has returned (C53_refuted, C53_refuted_conn); Start may take a configuration after Close and leave its listener open (C53_refuted_start). C53_partial, C53_partial_start: true if nobody is in between at the decisive moment. C53_partial_before: what was installed before is closed in any case."
  },
  {
   "property": "C54",
   "status": "proved",
   "theorems": [
    "Gevulot.ServerModel.C54",
    "Gevulot.ServerModel.C54_one",
    "Gevulot.ServerModel.C54_again",
    "Gevulot.ServerModel.C54_returns",
    "Gevulot.ServerModel.C54_rest",
    "Gevulot.ServerModel.C54_finite"
   ],
   "note": ""
  },
  {
   "property": "C55",
   "status": "proved",
   "theorems": [
    "Gevulot.ServerModel.C55",
    "Gevulot.ServerModel.C55_close",
    "Gevulot.ServerModel.C55_once"
   ],
   "note": ""
  },
  {
   "property": "C56",
   "status": "partial",
   "theorems": [
    "Gevulot.ServerModel.C56_partial",
    "Gevulot.ServerModel.C56_refuted"
   ],
   "note": "False: Start closes its channel without unsubscribing it, so the next change of the listening address panics (C56_refuted). C56_partial: exactly when."
  },
  {
   "property": "C57",
   "status": "proved",
   "theorems": [
    "Gevulot.ServerModel.C57",
    "Gevulot.ServerModel.C57_step"
   ],
   "note": ""
  },
  {
   "property": "C58",
   "status": "proved",
   "theorems": [
    "Gevulot.CliModel.C58",
    "Gevulot.CliModel.C58_help",
    "Gevulot.CliModel.C58_server",
    "Gevulot.CliModel.C58_message",
    "Gevulot.CliModel.C58_real"
   ],
   "note": ""
  },
  {
   "property": "C59",
   "status": "proved",
   "theorems": [
    "Gevulot.CliModel.C59",
    "Gevulot.CliModel.C59_bad"
   ],
   "note": ""
  },
  {
   "property": "C60",
   "status": "proved",
   "theorems": [
    "Gevulot.CliModel.C60",
    "Gevulot.CliModel.C60_handled"
   ],
   "note": ""
  },
  {
   "property": "C61",
   "status": "partial",
   "theorems": [
    "Gevulot.CliModel.C61_partial",
    "Gevulot.CliModel.C61_refuted"
   ],
   "note": "False for an event with both Create and Write: only OnCreate is called (C61_refuted). C61_partial: exactly when OnWrite is called."
  },
  {
   "property": "C62",
   "status": "partial",
   "theorems": [
    "Gevulot.InspectorModel.C62_partial",
    "Gevulot.InspectorModel.C62_partial_error",
    "Gevulot.InspectorModel.C62_refuted"
   ],
   "note": "False: rows.Err() is not checked, so a connection failing in the middle of the result gives an incomplete mapping and no error (C62_refuted). C62_partial: true if the whole result is delivered; C62_partial_error: other errors are returned."
  },
  {
   "property": "C63",
   "status": "partial",
   "theorems": [
    "Gevulot.InspectorModel.C63_partial_like",
    "Gevulot.InspectorModel.C63_partial",
    "Gevulot.InspectorModel.C63_partial_system",
    "Gevulot.InspectorModel.C63_refuted",
    "Gevulot.InspectorModel.C63_refuted_partitioned",
    "Gevulot.InspectorModel.C63_partial_mapping"
   ],
   "note": "False: in NOT LIKE 'pg_%' the underscore is a wildcard, so schemas like 'pgboss' are left out (C63_refuted), and so are partitioned tables (C63_refuted_partitioned). C63_partial: exactly what is kept. C63_partial_like: LIKE, as modelled, is that of SQL for all patterns."
  },
  {
   "property": "C64",
   "status": "partial",
   "theorems": [
    "Gevulot.ServerModel.C64_partial",
    "Gevulot.ServerModel.C64_partial_served",
    "Gevulot.ServerModel.C64_partial_refused",
    "Gevulot.ServerModel.C64_refuted"
   ],
   "note": "False: a connection whose ServeConn is refused because the server has just been closed is never closed (C64_refuted). C64_partial: every other is, when ServeConn returns; C64_partial_served: from when its session has ended; C64_partial_refused: a goroutine leaves its connection open only after Close was called."
  },
  {
   "property": "C65",
   "status": "partial",
   "theorems": [
    "Gevulot.CliModel.C65_partial",
    "Gevulot.CliModel.C65_refuted",
    "Gevulot.CliModel.C65_refuted_replace",
    "Gevulot.CliModel.C65_refuted_forever"
   ],
   "note": "False: a change between the initial read and the start of the watch is lost (C65_refuted), and replacing the file ends the watch for good (C65_refuted_replace, C65_refuted_forever). C65_partial: true of a file that is unchanged until the watch has started and from then on only written in place."
  },
  {
   "property": "C66",
   "status": "partial",
   "theorems": [
    "Gevulot.CliModel.C66_partial",
    "Gevulot.CliModel.C66_refuted",
    "Gevulot.CliModel.C66_refuted_truncate"
   ],
   "note": "False: any TOML file is accepted, absent settings become empty strings (C66_refuted); a file truncated and rewritten makes the server receive an empty configuration in between (C66_refuted_truncate). C66_partial: exactly what is accepted."
  },
  {
   "property": "C67",
   "status": "proved",
   "theorems": [
    "Gevulot.FullSession.C67_db",
    "Gevulot.FullSession.C67_client"
   ],
   "note": ""
  },
  {
   "property": "C68",
   "status": "proved",
   "theorems": [
    "Gevulot.FullSession.C68_db",
    "Gevulot.FullSession.C68_client",
    "Gevulot.FullSession.C68_rest",
    "Gevulot.FullSession.C68_complete"
   ],
   "note": ""
  },
  {
   "property": "C69",
   "status": "proved",
   "theorems": [
    "Gevulot.FullSession.C69",
    "Gevulot.FullSession.C69_rest",
    "Gevulot.FullSession.C69_finite"
   ],
   "note": ""
  },
  {
   "property": "C70",
   "status": "partial",
   "theorems": [
    "Gevulot.System.C70_closed",
    "Gevulot.System.C70_wait_partial",
    "Gevulot.System.C70_partial",
    "Gevulot.System.C70_missed",
    "Gevulot.System.C70_hanging",
    "Gevulot.System.C70_finite",
    "Gevulot.System.C70_refuted",
    "Gevulot.System.C70_refuted_dialling"
   ],
   "note": "False: a session registered after Close has gone through the sessions is never closed, and Close waits for it for ever (C70_refuted, C70_missed); a session that Close comes upon while it is dialling waits for its database, with its client gone (C70_refuted_dialling, C70_hanging). C70_wait_partial: what Close can be waiting for when nothing else is left to do; C70_partial: the claim, if Close gets the lock when no handshake or registration is under way; C70_finite: gevulot alone makes only a bounded number of steps, so that it comes to the situations described. C70_closed: whenever Close returns, the sessions that were registered when it got the lock have been closed."
  },
  {
   "property": "C71",
   "status": "partial",
   "theorems": [
    "Gevulot.System.C71_refuted",
    "Gevulot.System.C71_refuted_other",
    "Gevulot.System.C71_partial"
   ],
   "note": "False: a client that knows the name of the database ends the process with one malformed message (C71_refuted, C71_refuted_other). C71_partial: the complete list of what can end the process; before Close it is only malformed messages."
  },
  {
   "property": "C72",
   "status": "proved",
   "theorems": [
    "Gevulot.System.C72",
    "Gevulot.System.C72_independent",
    "Gevulot.System.C72_db",
    "Gevulot.System.C72_client"
   ],
   "note": ""
  },
  {
   "property": "C73",
   "status": "proved",
   "theorems": [
    "Gevulot.Process.C73",
    "Gevulot.Process.C73_exit",
    "Gevulot.Process.C73_begin",
    "Gevulot.Process.C73_end"
   ],
   "note": "C73_begin: the server is started when the configuration has been read and is being watched, otherwise the program exits; C73_exit: when the program exits; C73_end: what else ends it. The deferred Close calls in run.go are dead code; the defects of Close (C47, C53, C54, C56, C64, C70) do not arise in the program as it is, only in a use of the packages that closes them."
  },
  {
   "property": "C74",
   "status": "proved",
   "theorems": [
    "Gevulot.Process.C74",
    "Gevulot.Process.C74_told"
   ],
   "note": "C74: where a call of Get can be; C74_told: what a session is told."
  },
  {
   "property": "C75",
   "status": "proved",
   "theorems": [
    "Gevulot.Process.C75",
    "Gevulot.Process.C75_free",
    "Gevulot.Process.C75_rest",
    "Gevulot.Process.C75_finite"
   ],
   "note": "C75: neither deadlock of C48 is reachable in the program; C75_free: putting the parts together does not keep any of them from going on; C75_rest, C75_finite: it comes to rest, and how it is then."
  },
  {
   "property": "C76",
   "status": "proved",
   "theorems": [
    "Gevulot.Process.C76_same",
    "Gevulot.Process.C76",
    "Gevulot.Process.C76_file",
    "Gevulot.Process.C76_stays"
   ],
   "note": "C76: the last configuration read; C76_file: the file, under the conditions of C65_partial; C76_stays: it stays in force. C76_same: the models of the distributor and of the server agree on what is in the channel between them."
  },
  {
   "property": "C77",
   "status": "proved",
   "theorems": [
    "Gevulot.Process.C77",
    "Gevulot.Process.C77_fresh",
    "Gevulot.Process.C77_rest"
   ],
   "note": "C77: where an address comes from; C77_fresh, C77_rest: how old it may be."
  },
  {
   "property": "C78",
   "status": "proved",
   "theorems": [
    "Gevulot.FileWatcherModel.C78",
    "Gevulot.FileWatcherModel.C78_which",
    "Gevulot.FileWatcherModel.C78_serial",
    "Gevulot.FileWatcherModel.C78_rest",
    "Gevulot.FileWatcherModel.C78_end"
   ],
   "note": "C78_which: the callback for an event; C78_serial: one at a time; C78_rest: none is left out. C78_end: what ends the handler."
  },
  {
   "property": "C79",
   "status": "proved",
   "theorems": [
    "Gevulot.FileWatcherModel.C79",
    "Gevulot.FileWatcherModel.C79_rest",
    "Gevulot.FileWatcherModel.C79_closed"
   ],
   "note": "C79: what is returned; C79_rest: it does return; C79_closed: the branches for closed channels are dead code."
  },
  {
   "property": "C80",
   "status": "partial",
   "theorems": [
    "Gevulot.FileWatcherModel.C80_refuted",
    "Gevulot.FileWatcherModel.C80_stays",
    "Gevulot.FileWatcherModel.C80_partial"
   ],
   "note": "False: if Add fails, the handler goes on waiting and the fsnotify watcher stays open, for good (C80_refuted, C80_stays). C80_partial: true if NewWatcher failed."
  },
  {
   "property": "C81",
   "status": "partial",
   "theorems": [
    "Gevulot.FileWatcherModel.C81_refuted",
    "Gevulot.FileWatcherModel.C81_refuted_second",
    "Gevulot.FileWatcherModel.C81_partial",
    "Gevulot.FileWatcherModel.C81_finite",
    "Gevulot.FileWatcherModel.C81_panic",
    "Gevulot.FileWatcherModel.C81_safe",
    "Gevulot.FileWatcherModel.C81_stop_partial"
   ],
   "note": "False: the select may take an event although watchDone is closed (C81_refuted); with two calls of Watch the first is never stopped (C81_refuted_second). C81_partial, C81_finite: after one Watch and StopWatch the handler ends and the watcher is closed; C81_panic, C81_safe: exactly when StopWatch panics. C81_stop_partial: StopWatch closes the channel that the handler of the only Watch waits for, so that C81_partial applies."
  },
  {
   "property": "C82",
   "status": "partial",
   "theorems": [
    "Gevulot.FileWatcherModel.C82_refuted",
    "Gevulot.FileWatcherModel.C82_never",
    "Gevulot.FileWatcherModel.C82_refuted_lost",
    "Gevulot.FileWatcherModel.C82_partial",
    "Gevulot.FileWatcherModel.C82_printed_partial"
   ],
   "note": "False: the message prints the variable err, which is nil, instead of watcherError (C82_refuted, C82_never); an error before Add returns is overwritten and lost (C82_refuted_lost). C82_partial: otherwise something is printed. C82_printed_partial: a line is printed and the watcher closed, if Add had returned."
  },
  {
   "property": "C83",
   "status": "proved",
   "theorems": [
    "Gevulot.FullSession.C83"
   ],
   "note": "Together with C67-C69 (what a session does not do): a session that refuses everybody meets those, not this."
  },
  {
   "property": "C84",
   "status": "proved",
   "theorems": [
    "Gevulot.Process.C84",
    "Gevulot.Process.C84_file"
   ],
   "note": "C84: with the configurations that the session was told; C84_file: with what is in the file, under the conditions of C76_stays."
  },
  {
   "property": "C85",
   "status": "proved",
   "theorems": [
    "Gevulot.Process.C85",
    "Gevulot.Process.C85_rest",
    "Gevulot.Process.C85_same"
   ],
   "note": "C85: at any time, the addresses tried are a prefix; C85_rest: at rest, all of them; C85_same: changes of the URL alone leave the listener as it is."
  },
  {
   "property": "C86",
   "status": "partial",
   "theorems": [
    "Gevulot.WaitGroup.C86_partial",
    "Gevulot.WaitGroup.C86_partial_run",
    "Gevulot.WaitGroup.C86_cause",
    "Gevulot.WaitGroup.C86_refuted",
    "Gevulot.WaitGroup.C86_refuted_reused",
    "Gevulot.WaitGroup.C86_refuted_misuse"
   ],
   "note": "False (C86_refuted, C86_refuted_misuse: 'WaitGroup misuse'; C86_refuted_reused: 'WaitGroup is reused'): Start may call do with a new listener while Close waits, when the last goroutine ends. C86_partial: it holds if no caller's thread calls do when Close waits and no goroutine is left; C86_partial_run: it holds if Close is never called, as in gevulot itself; C86_cause: there is no other cause, and no negative counter."
  },
  {
   "property": "C87",
   "status": "proved",
   "theorems": [
    "Gevulot.WaitGroup.C87",
    "Gevulot.WaitGroup.C87_wait",
    "Gevulot.WaitGroup.C87_rest",
    "Gevulot.WaitGroup.C87_rest_server",
    "Gevulot.WaitGroup.C87_finite"
   ],
   "note": "C87: the server's part of any execution is an execution of the model with a counter; C87_wait: goroutines have finished when Wait returns; C87_rest: no lost wake-up; C87_rest_server: being at rest means the same in both models; C87_finite."
  },
  {
   "property": "C88",
   "status": "partial",
   "theorems": [
    "Gevulot.FullSession.C88_refuted",
    "Gevulot.FullSession.C88_partial",
    "Gevulot.FullSession.C88_partial_own"
   ],
   "note": "False: Close reads s.dbConn when the handshake is about to write it (C88_refuted). C88_partial: an equivalence, this is the only race; C88_partial_own: none if nobody else calls Close; C88_partial_server: none in the server before Close; C88_partial_program: none in gevulot itself."
  },
  {
   "property": "C89",
   "status": "partial",
   "theorems": [
    "Gevulot.FileWatcherModel.C89_refuted",
    "Gevulot.FileWatcherModel.C89_refuted_return",
    "Gevulot.FileWatcherModel.C89_partial",
    "Gevulot.FileWatcherModel.C89_partial_done",
    "Gevulot.FileWatcherModel.C89_partial_once",
    "Gevulot.FileWatcherModel.C89_cause"
   ],
   "note": "False: the handler may write watcherError, on an error of fsnotify, when the other goroutine stores the result of Add (C89_refuted), or when Watch reads it to return it (C89_refuted_return). C89_partial: an equivalence, these are the only ones; C89_partial_done: when there is a race for w.watchDone; C89_partial_once: none under the conditions of the property; C89_cause: the conditions are needed."
  },
  {
   "property": "C90",
   "status": "proved",
   "theorems": [
    "Gevulot.LogModel.C90",
    "Gevulot.LogModel.C90_session",
    "Gevulot.LogModel.C90_append"
   ],
   "note": "C90: contents and order; C90_session: logging does not change the session; C90_append: lines are only added, when a message is taken."
  },
  {
   "property": "C91",
   "status": "partial",
   "theorems": [
    "Gevulot.LogModel.C91_refuted",
    "Gevulot.LogModel.C91_refuted_text",
    "Gevulot.LogModel.C91_partial"
   ],
   "note": "False: the password message is logged in clear text with the level Info (C91_refuted, C91_refuted_text). C91_partial: only what is relayed is logged, so neither the startup packet nor the configured database URI."
  },
  {
   "property": "C92",
   "status": "partial",
   "theorems": [
    "Gevulot.FullSession.C92_refuted",
    "Gevulot.FullSession.C92_partial"
   ],
   "note": "False: a client that goes on sending SSL requests gets the recursion to any depth (C92_refuted; the code has a comment on it). C92_partial: each call but the first is due to an SSL request, of at least 8 bytes."
  },
  {
   "property": "C93",
   "status": "partial",
   "theorems": [
    "Gevulot.FullSession.C93_partial",
    "Gevulot.FullSession.C93_refuted"
   ],
   "note": "False: the client is disconnected (C93_refuted). C93_partial: in every session; the database is not even dialled, and the client is disconnected."
  },
  {
   "property": "C94",
   "status": "partial",
   "theorems": [
    "Gevulot.FullSession.C94_refuted",
    "Gevulot.FullSession.C94_partial"
   ],
   "note": "False: it is disconnected without a word (C94_refuted). C94_partial: before the database is dialled the client gets the answers to its SSL requests and nothing else."
  },
  {
   "property": "C95",
   "status": "proved",
   "theorems": [
    "Gevulot.InspectorModel.C95",
    "Gevulot.InspectorModel.C95_methods"
   ],
   "note": "C95: Inspect; C95_methods: the other methods and Close."
  },
  {
   "property": "C96",
   "status": "proved",
   "theorems": [
    "Gevulot.Pieces.C96",
    "Gevulot.Pieces.C96_all",
    "Gevulot.Pieces.C96_db",
    "Gevulot.Pieces.C96_client",
    "Gevulot.Pieces.C96_same_db",
    "Gevulot.Pieces.C96_same_client",
    "Gevulot.Pieces.C96_rest",
    "Gevulot.Pieces.C96_complete",
    "Gevulot.Pieces.C96_refused",
    "Gevulot.Pieces.C96_finite"
   ],
   "note": "C96: the refinement (simulation in Proofs/PiecesSim.lean, PiecesRefine.lean). C96_all: the converse. C96_db, C96_client, C96_same_db, C96_same_client: C67 and C68 for states with half-read and half-written messages. C96_rest, C96_complete: at rest. C96_refused: C69. C96_finite: no infinite run of gevulot's own steps."
  },
  {
   "property": "C97",
   "status": "proved",
   "theorems": [
    "Gevulot.Whole.C97",
    "Gevulot.Whole.C97_all",
    "Gevulot.Whole.C97_session",
    "Gevulot.Whole.C97_db",
    "Gevulot.Whole.C97_end",
    "Gevulot.Whole.C97_finite",
    "Gevulot.Whole.C97_served",
    "Gevulot.Whole.C97_delivered"
   ],
   "note": "C97: the refinement (Proofs/Whole.lean, from C96's simulation). C97_all: the converse. C97_session: each session is one of C96. C97_db: what databases get. C97_served: C84. C97_delivered: everything arrives. C97_end: how the program ends. C97_finite: no infinite run of its own steps."
  },
  {
   "property": "C98",
   "status": "proved",
   "theorems": [
    "Gevulot.FullSession.C98",
    "Gevulot.FullSession.C98_closed",
    "Gevulot.FullSession.C98_outside",
    "Gevulot.FullSession.C98_timing",
    "Gevulot.FullSession.C98_all",
    "Gevulot.FullSession.C98_server",
    "Gevulot.FullSession.C98_program"
   ],
   "note": "C98: an open session and everything the client has sent. C98_closed: a session closed at any moment and the bytes read. C98_outside: every execution has an outside world in the sense of Spec.Outside. C98_timing: two executions with the same bytes and the same outside world. C98_all: the converse. C98_server, C98_program: in the server and in the whole program."
  },
  {
   "property": "C99",
   "status": "partial",
   "theorems": [
    "Gevulot.SessionModel.C99_blocked",
    "Gevulot.SessionModel.C99_refuted",
    "Gevulot.SessionModel.C99_refuted_forever",
    "Gevulot.SessionModel.C99_partial",
    "Gevulot.System.C99_others"
   ],
   "note": "False: there is one goroutine that processes the messages of both directions; if it waits for a place in the queue to a peer that does not read, nothing is passed on in the other direction either, until that peer reads or the session ends (C99_refuted, C99_refuted_forever, C99_blocked). C99_partial: up to 65 messages for that peer this does not happen (66 in the witness). C99_others: other sessions."
  },
  {
   "property": "C100",
   "status": "partial",
   "theorems": [
    "Gevulot.URLModel.C100_partial",
    "Gevulot.URLModel.C100_refuted_socket",
    "Gevulot.URLModel.C100_refuted_slash",
    "Gevulot.URLModel.C100_refuted_plus",
    "Gevulot.URLModel.C100_refuted_semicolon",
    "Gevulot.URLModel.C100_refuted_dbname",
    "Gevulot.URLModel.C100_refuted_user",
    "Gevulot.URLModel.C100_refuted"
   ],
   "note": "False: a percent-encoded host (the documented directory of sockets) is refused (C100_refuted_socket), slashes at the beginning of a database name are lost (C100_refuted_slash), + is read as a space (C100_refuted_plus), ; ends a parameter (C100_refuted_semicolon), the parameter dbname does not name the database (C100_refuted_dbname), and the parameter user does not change the default for the database (C100_refuted_user). C100_partial: everything else is read as documented."
  },
  {
   "property": "C101",
   "status": "partial",
   "theorems": [
    "Gevulot.URLModel.C101_partial",
    "Gevulot.URLModel.C101_refuted_opaque",
    "Gevulot.URLModel.C101_refuted"
   ],
   "note": "False: postgres:anything is accepted, the rest is ignored, and one is connected to the default database at localhost (C101_refuted, C101_refuted_opaque). C101_partial: the scheme, the control characters (except behind #) and the port are checked."
  },
  {
   "property": "C102",
   "status": "proved",
   "theorems": [
    "Gevulot.URLModel.C102"
   ],
   "note": "For URIs in the sense of C100_partial (Spec.UsualURI)."
  },
  {
   "property": "C103",
   "status": "proved",
   "theorems": [
    "Gevulot.CliWatch.C103",
    "Gevulot.CliWatch.C103_bad",
    "Gevulot.CliWatch.C103_rest",
    "Gevulot.CliWatch.C103_current",
    "Gevulot.CliWatch.C103_finite",
    "Gevulot.CliWatch.C103_ended",
    "Gevulot.CliWatch.C103_deaf"
   ],
   "note": "C103: the refinement (simulation in Proofs/CliWatchSim.lean). C103_bad: C59. C103_rest: nothing waits for good. C103_current: C60. C103_finite: no infinite run of the program's own steps. C103_ended: after an error nothing is sent again. C103_deaf: an error before Add returns is lost, the program runs without ever noticing a change (the code's flaw of C82, for the program)."
  },
  {
   "property": "C104",
   "status": "proved",
   "theorems": [
    "Gevulot.BufferInspect.C104",
    "Gevulot.BufferInspect.C104_inj"
   ],
   "note": "hex.Dump as it is in Go's encoding/hex, against a description of the layout (Spec/BufferInspect.lean). C104_inj: nothing is lost."
  },
  {
   "property": "C105",
   "status": "proved",
   "theorems": [
    "Gevulot.Program.C105",
    "Gevulot.Program.C105_session",
    "Gevulot.Program.C105_db",
    "Gevulot.Program.C105_uri",
    "Gevulot.Program.C105_listen",
    "Gevulot.Program.C105_current",
    "Gevulot.Program.C105_served",
    "Gevulot.Program.C105_delivered",
    "Gevulot.Program.C105_end",
    "Gevulot.Program.C105_finite"
   ],
   "note": "C105: the refinement (simulation in Proofs/Program.lean): the program of C97 with the watcher of C103 in the place of that of C58\u2013C61. C105_session, C105_db, C105_uri, C105_listen, C105_current, C105_served, C105_delivered, C105_end, C105_finite: C96, C97, C102, C85, C76, C84, C73 for it."
  },
  {
   "property": "C106",
   "status": "proved",
   "theorems": [
    "Gevulot.ServerLock.C106",
    "Gevulot.ServerLock.C106_run",
    "Gevulot.ServerLock.C106_all",
    "Gevulot.ServerLock.C106_mutex",
    "Gevulot.ServerLock.C106_goes_on",
    "Gevulot.ServerLock.C106_finite",
    "Gevulot.ServerLock.C106_rest",
    "Gevulot.ServerLock.C106_one",
    "Gevulot.ServerLock.C106_close"
   ],
   "note": "C106: the refinement (simulation in Proofs/ServerLock.lean), C106_run: for executions, C106_all: the converse. C106_mutex, C106_goes_on, C106_finite, C106_rest: mutual exclusion, and nobody waits for good. C106_one, C106_close: C51, C53 at every moment."
  },
  {
   "property": "C107",
   "status": "proved",
   "theorems": [
    "Gevulot.DistributorLock.C107",
    "Gevulot.DistributorLock.C107_run",
    "Gevulot.DistributorLock.C107_all",
    "Gevulot.DistributorLock.C107_mutex",
    "Gevulot.DistributorLock.C107_guarded",
    "Gevulot.DistributorLock.C107_snapshot",
    "Gevulot.DistributorLock.C107_close",
    "Gevulot.DistributorLock.C107_goes_on",
    "Gevulot.DistributorLock.C107_finite",
    "Gevulot.DistributorLock.C107_rest",
    "Gevulot.DistributorLock.C107_delivered",
    "Gevulot.DistributorLock.C107_unsubscribe"
   ],
   "note": "C107: the refinement (simulation in Proofs/DistributorLock.lean), C107_run: for executions, C107_all: the converse. C107_mutex, C107_guarded: mutual exclusion. C107_snapshot: what Get reads. C107_close, C107_unsubscribe, C107_delivered: C46, C45, C44 with the mutex. C107_goes_on, C107_finite, C107_rest: nobody waits for good because of the mutex; the deadlocks of C48 remain."
  },
  {
   "property": "C108",
   "status": "proved",
   "theorems": [
    "Gevulot.SessionLog.C108",
    "Gevulot.SessionLog.C108_wait",
    "Gevulot.SessionLog.C108_log"
   ],
   "note": "C108: what Start returns. C108_wait: errgroup. C108_log: the line about it. (Model/SessionLog.lean.)"
  },
  {
   "property": "C109",
   "status": "proved",
   "theorems": [
    "Gevulot.SessionLog.C109",
    "Gevulot.SessionLog.C109_close",
    "Gevulot.SessionLog.C109_relay",
    "Gevulot.SessionLog.C109_printed",
    "Gevulot.SessionLog.C109_session",
    "Gevulot.SessionLog.C109_all",
    "Gevulot.SessionLog.C109_verbose"
   ],
   "note": "C109: Start and the handshake. C109_close: Close. C109_relay: startProcessing, by C90. C109_printed, C109_verbose: what configureLogger lets through. C109_session, C109_all: the session is that of C54 and following, in both directions."
  },
  {
   "property": "C110",
   "status": "proved",
   "theorems": [
    "Gevulot.ServerLog.C110",
    "Gevulot.ServerLog.C110_serve",
    "Gevulot.ServerLog.C110_old",
    "Gevulot.ServerLog.C110_accept",
    "Gevulot.ServerLog.C110_conn",
    "Gevulot.ServerLog.C110_session",
    "Gevulot.ServerLog.C110_close",
    "Gevulot.ServerLog.C110_failed",
    "Gevulot.ServerLog.C110_closing",
    "Gevulot.ServerLog.C110_idle",
    "Gevulot.ServerLog.C110_server",
    "Gevulot.ServerLog.C110_all"
   ],
   "note": "C110: Start. C110_serve, C110_old, C110_accept: Serve. C110_conn, C110_session: ServeConn. C110_close, C110_failed, C110_closing: Close. C110_idle: nobody else logs. C110_server, C110_all: the server is that of C50 and following, in both directions. (Model/ServerLog.lean.)"
  },
  {
   "property": "C111",
   "status": "proved",
   "theorems": [
    "Gevulot.SystemLog.C111",
    "Gevulot.SystemLog.C111_session",
    "Gevulot.SystemLog.C111_log",
    "Gevulot.SystemLog.C111_silent",
    "Gevulot.SystemLog.C111_one",
    "Gevulot.SystemLog.C111_all"
   ],
   "note": "C111: the result. C111_session, C111_log, C111_silent: the session and what is logged about a connection. C111_one: the model is the one of C70 and following together with those of C108\u2013C110. C111_all: all executions of that occur, except those in which Model/System.lean lets ServeConn return nil. (Model/SystemLog.lean.)"
  },
  {
   "property": "C112",
   "status": "proved",
   "theorems": [
    "Gevulot.WatchLog.C112",
    "Gevulot.WatchLog.C112_none",
    "Gevulot.WatchLog.C112_first",
    "Gevulot.WatchLog.C112_told",
    "Gevulot.WatchLog.C112_said",
    "Gevulot.WatchLog.C112_fails",
    "Gevulot.WatchLog.C112_watch",
    "Gevulot.WatchLog.C112_all",
    "Gevulot.Program.C112_program"
   ],
   "note": "C112: the log. C112_none: no reading is lost. C112_first: a bad file at the start. C112_told: when nothing is left to do, the server has what is in the file, or the last line says that it is no configuration. C112_said, C112_fails: the message of Run. C112_program: the same of the whole program of C105. C112_watch, C112_all: the model is the one of C103 with the log. (Model/WatchLog.lean.)"
  },
  {
   "property": "C113",
   "status": "proved",
   "theorems": [
    "Gevulot.DistributorLog.C113",
    "Gevulot.DistributorLog.C113_source",
    "Gevulot.DistributorLog.C113_exited",
    "Gevulot.DistributorLog.C113_one",
    "Gevulot.DistributorLog.C113_rest",
    "Gevulot.DistributorLog.C113_dist",
    "Gevulot.DistributorLog.C113_all"
   ],
   "note": "C113: the lines, by where the monitor is. C113_source, C113_exited: what they imply. C113_one: a single monitor. C113_rest: at rest. C113_dist, C113_all: the model is that of C41\u2013C49 with the log. (Model/DistributorLog.lean.)"
  }
 ]
}