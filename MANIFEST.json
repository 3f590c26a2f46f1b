{
 "claims": [
  {
   "property": "C01",
   "status": "proved",
   "theorems": [
    "Props.C01_cmp_nocase_eq_iff",
    "Props.C01_eq_nocase_iff",
    "Props.C01_cmp_nocase_swap",
    "Props.C01_cmp_nocase_lt_trans",
    "Props.C01_cmp_nocase_congr",
    "Props.C01_cmp_nocase_lt_iff",
    "Props.C01_cmp_nocase_nozero",
    "Props.C01_eq_nocase_nozero_iff",
    "Props.C01_cmp_nocase_trimmed"
   ],
   "note": ""
  },
  {
   "property": "C02",
   "status": "proved",
   "theorems": [
    "Props.C02_index_of_nocase_some",
    "Props.C02_index_of_nocase_none"
   ],
   "note": ""
  },
  {
   "property": "C03",
   "status": "proved",
   "theorems": [
    "Props.C03_index_of_nocase_nozero_some",
    "Props.C03_index_of_nocase_nozero_isSome"
   ],
   "note": ""
  },
  {
   "property": "C04",
   "status": "proved",
   "theorems": [
    "Props.C04_table_get_nocase",
    "Props.C04_headers_get_nocase",
    "Props.C04_headers_get_nocase_nozero",
    "Props.C04_first_match_unique",
    "Props.C04_table_add",
    "Props.C04_headers_push"
   ],
   "note": ""
  },
  {
   "property": "C05",
   "status": "proved",
   "theorems": [
    "Props.C05_chomp",
    "Props.C05_chomp_idempotent",
    "Props.C05_trimmed",
    "Props.C05_trimmed_idempotent"
   ],
   "note": ""
  },
  {
   "property": "C06",
   "status": "proved",
   "theorems": [
    "Props.C06_convert_port",
    "Props.C06_convert_port_render"
   ],
   "note": ""
  },
  {
   "property": "C07",
   "status": "proved",
   "theorems": [
    "Props.C07_validate_hostname",
    "Props.C07_validate_bracketed"
   ],
   "note": ""
  },
  {
   "property": "C08",
   "status": "proved",
   "theorems": [
    "Props.C08_parse_content_length",
    "Props.C08_content_length_render"
   ],
   "note": ""
  },
  {
   "property": "C09",
   "status": "proved",
   "theorems": [
    "Props.C09_parse_chunked_length",
    "Props.C09_parse_chunked_length_no_digits",
    "Props.C09_chunk_length_render",
    "Props.C09_chunk_length_bound"
   ],
   "note": ""
  },
  {
   "property": "C10",
   "status": "proved",
   "theorems": [
    "Props.C10_parse_status",
    "Props.C10_parse_status_else"
   ],
   "note": ""
  },
  {
   "property": "C11",
   "status": "proved",
   "theorems": [
    "Props.C11_parse_protocol"
   ],
   "note": ""
  },
  {
   "property": "C12",
   "status": "partial",
   "theorems": [
    "Props.C12_no_scheme_split_partial",
    "Props.C12_scheme_split_partial",
    "Props.C12_loses_fragment"
   ],
   "note": "The split is characterised for every input. Losslessness is false in one case: a '?' followed by '#' or by nothing drops the query and the fragment (C12_loses_fragment)."
  },
  {
   "property": "C13",
   "status": "proved",
   "theorems": [
    "Props.C13_no_dot_segments",
    "Props.C13_no_dots_unchanged",
    "Props.C13_idempotent",
    "Props.C13_never_grows",
    "Props.C13_stays_absolute",
    "Props.C13_agrees_with_rfc3986",
    "Props.C13_not_rfc3986",
    "Props.C13_relative_becomes_absolute"
   ],
   "note": "Relative to the statement; the result differs from RFC 3986 for some inputs (C13_not_rfc3986), which is recorded as a finding."
  },
  {
   "property": "C14",
   "status": "proved",
   "theorems": [
    "Props.C14_decode_encode"
   ],
   "note": ""
  },
  {
   "property": "C15",
   "status": "proved",
   "theorems": [
    "Props.C15_decode_spec",
    "Props.C15_decode_total",
    "Props.C15_decode_never_grows",
    "Props.C15_plain_identity",
    "Props.C15_process_invalid_panics"
   ],
   "note": ""
  },
  {
   "property": "C16",
   "status": "partial",
   "theorems": [
    "Props.C16_raw_nul_terminates",
    "Props.C16_encoded_nul_terminates",
    "Props.C16_raw_nul_flagged",
    "Props.C16_encoded_nul_flagged",
    "Props.C16_path_raw_nul_terminates",
    "Props.C16_path_encoded_nul_terminates",
    "Props.C16_path_raw_nul_unflagged",
    "Props.C16_path_nul_flag_partial"
   ],
   "note": "False for raw NULs in paths, which raise no flag (C16_path_raw_nul_unflagged); proved for decode_uri and for termination everywhere."
  },
  {
   "property": "C17",
   "status": "proved",
   "theorems": [
    "Props.C17_path_spec",
    "Props.C17_path_total",
    "Props.C17_path_never_grows",
    "Props.C17_no_double_slash",
    "Props.C17_no_backslash",
    "Props.C17_no_upper"
   ],
   "note": ""
  },
  {
   "property": "C18",
   "status": "proved",
   "theorems": [
    "Props.C18_chunking_independent"
   ],
   "note": ""
  },
  {
   "property": "C19",
   "status": "proved",
   "theorems": [
    "Props.C19_form_spec",
    "Props.C19_form_round_trip"
   ],
   "note": ""
  },
  {
   "property": "C20",
   "status": "proved",
   "theorems": [
    "Props.C20_utf8_report",
    "Props.C20_utf8_total",
    "Props.C20_inplace",
    "Props.C20_well_formed_valid",
    "Props.C20_ascii_unchanged",
    "Props.C20_truncated_not_invalid"
   ],
   "note": ""
  },
  {
   "property": "C21",
   "status": "proved",
   "theorems": [
    "Props.C21_block_recovered",
    "Props.C21_response_swallows",
    "Props.C21_response_swallows_cr"
   ],
   "note": "Request side: any trailing data. Response side: trailing data must not begin with SP, TAB or CR; C21_response_swallows shows the condition is needed."
  },
  {
   "property": "C22",
   "status": "partial",
   "theorems": [
    "Props.C22_end_is_final_partial",
    "Props.C22_two_parts_partial",
    "Props.C22_cut_in_crlf_partial",
    "Props.C22_split_deformed",
    "Props.C22_split_in_crlf",
    "Props.C22_response_split",
    "Props.C22_response_pieces_partial",
    "Props.C22_request_pieces_false"
   ],
   "note": "False as stated (C22_split_deformed, C22_split_in_crlf, C22_response_split). Proved on the request side for text without LF CR CR LF, including the exceptional cut between the CR and LF of the empty line. On the response side proved for blocks of well-formed header lines cut into any number of pieces at any places (C22_response_pieces_partial), which does not hold for requests (C22_request_pieces_false)."
  },
  {
   "property": "C23",
   "status": "proved",
   "theorems": [
    "Props.C23_headers_suffix",
    "Props.C23_header_suffix"
   ],
   "note": ""
  },
  {
   "property": "C24",
   "status": "proved",
   "theorems": [
    "Props.C24_connection",
    "Props.C24_bounded",
    "Props.C24_cursors",
    "Props.C24_current"
   ],
   "note": ""
  },
  {
   "property": "C25",
   "status": "proved",
   "theorems": [
    "Props.C25_request_next",
    "Props.C25_response_next",
    "Props.C25_nothing_lost"
   ],
   "note": ""
  },
  {
   "property": "C26",
   "status": "proved",
   "theorems": [
    "Props.C26_all_accepted",
    "Props.C26_stops_at_first_failure",
    "Props.C26_cases",
    "Props.C26_ok_iff",
    "Props.C26_register",
    "Props.C26_tx_hook"
   ],
   "note": ""
  },
  {
   "property": "C27",
   "status": "proved",
   "theorems": [
    "Props.C27_filter",
    "Props.C27_history",
    "Props.C27_wanted_total",
    "Props.C27_take"
   ],
   "note": ""
  },
  {
   "property": "C28",
   "status": "partial",
   "theorems": [
    "Props.C28_request_error",
    "Props.C28_response_error",
    "Props.C28_request_stop",
    "Props.C28_response_stop",
    "Props.C28_request_error_forever",
    "Props.C28_response_forever_partial",
    "Props.C28_request_stop_partial",
    "Props.C28_response_error_forgotten",
    "Props.C28_request_stop_forgotten",
    "Props.C28_stop_closed"
   ],
   "note": "Every call on a failed or stopped stream is characterised, and ERROR on requests is proved to last for ever. Not for ever: ERROR on responses under CONNECT (C28_response_error_forgotten), STOP on requests under a 101 response (C28_request_stop_forgotten), STOP under close (C28_stop_closed)."
  },
  {
   "property": "C29",
   "status": "proved",
   "theorems": [
    "Props.C29_request",
    "Props.C29_response"
   ],
   "note": ""
  },
  {
   "property": "C30",
   "status": "proved",
   "theorems": [
    "Props.C30_request",
    "Props.C30_response",
    "Props.C30_request_total"
   ],
   "note": ""
  },
  {
   "property": "C31",
   "status": "proved",
   "theorems": [
    "Props.C31_request",
    "Props.C31_response"
   ],
   "note": ""
  },
  {
   "property": "C32",
   "status": "proved",
   "theorems": [
    "Props.C32_loop",
    "Props.C32_request",
    "Props.C32_response",
    "Props.C32_request_bound",
    "Props.C32_response_bound",
    "Props.C32_close"
   ],
   "note": ""
  },
  {
   "property": "C33",
   "status": "proved",
   "theorems": [
    "Props.C33_bounded",
    "Props.C33_request_rounds",
    "Props.C33_response_rounds",
    "Props.C33_request_overflow",
    "Props.C33_response_overflow"
   ],
   "note": ""
  },
  {
   "property": "C34",
   "status": "proved",
   "theorems": [
    "Props.C34_request_inside",
    "Props.C34_request_end",
    "Props.C34_response_inside",
    "Props.C34_response_end",
    "Props.C34_request_start",
    "Props.C34_response_until_close"
   ],
   "note": ""
  },
  {
   "property": "C35",
   "status": "partial",
   "theorems": [
    "Props.C35_request_chunks_partial",
    "Props.C35_request_end_partial",
    "Props.C35_response_chunks_partial",
    "Props.C35_response_end_partial",
    "Props.C35_request_cut_size_line",
    "Props.C35_response_cut_size_line",
    "Props.C35_request_cut_line_break"
   ],
   "note": "Proved, in both directions, for every stream of valid chunks and every segmentation that does not cut a chunk-size line. False otherwise: C35_request_cut_size_line and C35_response_cut_size_line lose or misread data; C35_request_cut_line_break shows a body failing because cut line breaks pile up in the line buffer."
  },
  {
   "property": "C36",
   "status": "partial",
   "theorems": [
    "Props.C36_order_partial",
    "Props.C36_body_after_trailer",
    "Props.C36_end_refused",
    "Props.C36_completion_refused",
    "Props.C36_headers_cut"
   ],
   "note": "Proved for every history in which the callbacks for the end of a request or transaction do not fail and no response comes before its request. False otherwise (C36_end_refused, C36_completion_refused, C48_response_ahead). Body data may follow the trailer (C36_body_after_trailer); a connection closed within the headers gets the trailer callback without the headers callback (C36_headers_cut)."
  },
  {
   "property": "C37",
   "status": "proved",
   "theorems": [
    "Props.C37_request_refused",
    "Props.C37_response_refused",
    "Props.C37_request_call",
    "Props.C37_response_call",
    "Props.C37_request_leading",
    "Props.C37_response_leading",
    "Props.C37_full_store_not_sticky"
   ],
   "note": "A full store answers ERROR to a gap without failing the stream (C37_full_store_not_sticky)."
  },
  {
   "property": "C38",
   "status": "proved",
   "theorems": [
    "Props.C38_request",
    "Props.C38_response",
    "Props.C38_forever"
   ],
   "note": ""
  },
  {
   "property": "C39",
   "status": "proved",
   "theorems": [
    "Props.C39_request",
    "Props.C39_response"
   ],
   "note": ""
  },
  {
   "property": "C40",
   "status": "partial",
   "theorems": [
    "Props.C40_coding",
    "Props.C40_smuggling",
    "Props.C40_repeated_partial",
    "Props.C40_folded_unflagged",
    "Props.C40_nul_duplicate_unflagged"
   ],
   "note": "The decision and the smuggling flag are characterised exactly over the header table. On the wire a folded Content-Length is never flagged (C40_folded_unflagged), nor is a duplicate whose name contains NULs (C40_nul_duplicate_unflagged); plain duplicates are (C40_repeated_partial)."
  },
  {
   "property": "C41",
   "status": "proved",
   "theorems": [
    "Props.C41_chain",
    "Props.C41_request",
    "Props.C41_response",
    "Props.C41_request_bounded",
    "Props.C41_response_bounded"
   ],
   "note": ""
  },
  {
   "property": "C42",
   "status": "partial",
   "theorems": [
    "Props.C42_request_partial",
    "Props.C42_response_partial",
    "Props.C42_request_layers",
    "Props.C42_response_layers",
    "Props.C42_request_limit_zero",
    "Props.C42_response_limit_zero",
    "Props.C42_request_lzma_limit_zero",
    "Props.C42_response_lzma_limit_zero"
   ],
   "note": "False for a limit of zero: a value naming a single encoding installs one decompressor without looking at the limits (C42_*_limit_zero, C42_*_lzma_limit_zero). Proved for every other limit, together with exactly what is installed."
  },
  {
   "property": "C43",
   "status": "partial",
   "theorems": [
    "Props.C43_partial",
    "Props.C43_same_partial",
    "Props.C43_plain",
    "Props.C43_no_panic",
    "Props.C43_extra_length_cut",
    "Props.C43_checksum_cut"
   ],
   "note": "False when a boundary falls between the two bytes of the extra-data length or of the checksum (C43_extra_length_cut, C43_checksum_cut). Proved for every other segmentation of every header (C43_partial), so without restriction for headers without these fields (C43_plain). The parser never panics (C43_no_panic)."
  },
  {
   "property": "C44",
   "status": "proved",
   "theorems": [
    "Props.C44_hostname",
    "Props.C44_flags",
    "Props.C44_plain_host",
    "Props.C44_plain_host_port"
   ],
   "note": "A port difference is reported only when the URI has a port itself, as the exact condition in C44_flags states."
  },
  {
   "property": "C45",
   "status": "proved",
   "theorems": [
    "Props.C45_supported",
    "Props.C45_unsupported",
    "Props.C45_normalized_paths"
   ],
   "note": ""
  },
  {
   "property": "C46",
   "status": "proved",
   "theorems": [
    "Props.C46_digest_username",
    "Props.C46_backslash_swallows_quote",
    "Props.C46_bearer",
    "Props.C46_digest",
    "Props.C46_basic",
    "Props.C46_other"
   ],
   "note": ""
  },
  {
   "property": "C47",
   "status": "proved",
   "theorems": [
    "Props.C47_window",
    "Props.C47_gap_window",
    "Props.C47_within",
    "Props.C47_contiguous",
    "Props.C47_partition"
   ],
   "note": ""
  },
  {
   "property": "C48",
   "status": "partial",
   "theorems": [
    "Props.C48_request_partial",
    "Props.C48_response",
    "Props.C48_response_ahead"
   ],
   "note": "Responses: proved for every history. Requests: proved for every history in which the callbacks for the end of a request or transaction do not fail and no response comes before its request; false when responses run ahead (C48_response_ahead)."
  },
  {
   "property": "C49",
   "status": "proved",
   "theorems": [
    "Props.C49_uri_round_trip",
    "Props.C49_at_sign_moves_host"
   ],
   "note": ""
  },
  {
   "property": "C50",
   "status": "proved",
   "theorems": [
    "Props.C50_framing",
    "Props.C50_smuggling",
    "Props.C50_connect_failed",
    "Props.C50_next"
   ],
   "note": ""
  },
  {
   "property": "C51",
   "status": "partial",
   "theorems": [
    "Props.C51_component",
    "Props.C51_component_reports",
    "Props.C51_path_partial",
    "Props.C51_path_overwritten",
    "Props.C51_path_nul_unreported",
    "Props.C51_form_overwritten"
   ],
   "note": "Proved for URI components and form fields (handling other than PROCESS_INVALID): the status is the last one asked for something in the text. False for paths, where the last byte overwrites the status (C51_path_overwritten, C51_path_nul_unreported); proved there for escaped NULs that end the path. A form parser keeps only the status of its last field (C51_form_overwritten)."
  },
  {
   "property": "C52",
   "status": "proved",
   "theorems": [
    "Props.C52_normalized_path",
    "Props.C52_conversion_reintroduces",
    "Props.C52_normalized_port",
    "Props.C52_normalized_hostname"
   ],
   "note": ""
  },
  {
   "property": "C53",
   "status": "proved",
   "theorems": [
    "Props.C53_normalized_uri"
   ],
   "note": ""
  },
  {
   "property": "C54",
   "status": "proved",
   "theorems": [
    "Props.C54_folded_fields",
    "Props.C54_response_splits_fold"
   ],
   "note": ""
  },
  {
   "property": "C55",
   "status": "proved",
   "theorems": [
    "Props.C55_no_panic",
    "Props.C55_request_answers",
    "Props.C55_response_answers",
    "Props.C55_close_answers",
    "Props.C55_returns",
    "Props.C55_history",
    "Props.C55_checked_build_panics"
   ],
   "note": ""
  },
  {
   "property": "C56",
   "status": "proved",
   "theorems": [
    "Props.C56_request_line",
    "Props.C56_request_line_09",
    "Props.C56_request_line_method",
    "Props.C56_apache_nul"
   ],
   "note": ""
  },
  {
   "property": "C57",
   "status": "proved",
   "theorems": [
    "Props.C57_response_line",
    "Props.C57_response_line_no_message",
    "Props.C57_response_line_no_code"
   ],
   "note": ""
  },
  {
   "property": "C58",
   "status": "proved",
   "theorems": [
    "Props.C58_requests"
   ],
   "note": ""
  },
  {
   "property": "C59",
   "status": "partial",
   "theorems": [
    "Props.C59_responses_partial",
    "Props.C59_chunked_swallows_next",
    "Props.C59_no_headers_swallows_next",
    "Props.C59_not_modified_with_length"
   ],
   "note": "Proved for every sequence of well-formed responses in which one with an empty header block or trailer is the last of its call. The condition is needed: C59_chunked_swallows_next and C59_no_headers_swallows_next lose the next response. A 304 with Content-Length is given a body (C59_not_modified_with_length), so such responses are not counted as well-formed."
  },
  {
   "property": "C60",
   "status": "proved",
   "theorems": [
    "Props.C60_conversation"
   ],
   "note": ""
  },
  {
   "property": "C61",
   "status": "partial",
   "theorems": [
    "Props.C61_pieces_partial",
    "Props.C61_empty_line_cut",
    "Props.C61_size_line_cut",
    "Props.C61_phantom_request"
   ],
   "note": "Proved for every cut except inside a chunk-size line, the line end after chunk data, or the empty line after header fields. False there: C61_empty_line_cut and C61_size_line_cut lose the next request, C61_phantom_request records a request that nobody sent."
  },
  {
   "property": "C62",
   "status": "partial",
   "theorems": [
    "Props.C62_pieces_partial",
    "Props.C62_status_line_end_cut",
    "Props.C62_size_line_cut"
   ],
   "note": "Proved for every cut except inside a chunk-size line or the line end of the status line, and, as in C59, with a response that has an empty header block or trailer last in its group. False otherwise: C62_status_line_end_cut merges a header line into the status message, C62_size_line_cut loses the next response."
  },
  {
   "property": "C63",
   "status": "proved",
   "theorems": [
    "Props.C63_close",
    "Props.C63_twice"
   ],
   "note": ""
  },
  {
   "property": "C64",
   "status": "proved",
   "theorems": [
    "Props.C64_decoded",
    "Props.C64_end",
    "Props.C64_gzip"
   ],
   "note": ""
  },
  {
   "property": "C65",
   "status": "proved",
   "theorems": [
    "Props.C65_decoded",
    "Props.C65_end",
    "Props.C65_gives_up",
    "Props.C65_first_byte_alone"
   ],
   "note": ""
  },
  {
   "property": "C66",
   "status": "partial",
   "theorems": [
    "Props.C66_interleaved_partial",
    "Props.C66_early_responses"
   ],
   "note": "Proved for every interleaving in which a response begins only when it is clear that its request is over, with messages cut as in C61 and C62. False otherwise: in C66_early_responses two responses come while the first request is under way, and that request is never reported as complete and its header field is recorded in another transaction."
  },
  {
   "property": "C67",
   "status": "proved",
   "theorems": [
    "Props.C67_sized",
    "Props.C67_until_close"
   ],
   "note": ""
  },
  {
   "property": "C68",
   "status": "proved",
   "theorems": [
    "Props.C68_alone",
    "Props.C68_alone_default",
    "Props.C68_rust",
    "Props.C68_data",
    "Props.C68_no_fault"
   ],
   "note": ""
  },
  {
   "property": "C69",
   "status": "proved",
   "theorems": [
    "Props.C69_strdup",
    "Props.C69_strdup_null",
    "Props.C69_round_trip",
    "Props.C69_ambiguous",
    "Props.C69_cmp",
    "Props.C69_cmp_nocase"
   ],
   "note": ""
  },
  {
   "property": "C70",
   "status": "partial",
   "theorems": [
    "Props.C70_setter",
    "Props.C70_last_setting",
    "Props.C70_personality",
    "Props.C70_true_is_one",
    "Props.C70_numbers",
    "Props.C70_huge_length",
    "Props.C70_null_partial",
    "Props.C70_null_missing",
    "Props.C70_normalized_uri"
   ],
   "note": "Options (server personalities included) and numbers are proved. NULL is not accepted everywhere the documentation allows it (C70_null_missing); lengths of 2^63 or more are told as none (C70_huge_length)."
  },
  {
   "property": "C71",
   "status": "partial",
   "theorems": [
    "Props.C71_interim_calls_partial",
    "Props.C71_interim_pieces_partial",
    "Props.C71_final_response_partial",
    "Props.C71_final_pieces_partial",
    "Props.C71_no_headers_swallows_final",
    "Props.C71_status_line_as_headers",
    "Props.C71_repetitions_kept",
    "Props.C71_requests_between"
   ],
   "note": "Proved for interim responses with the code 100 in which no field comes more than twice, where one without header fields is the last of its call. False otherwise: C71_no_headers_swallows_final loses the final response; C71_repetitions_kept. Header data of an interim response is handed out only if the call ends after it; C71_status_line_as_headers shows what happens if the call ends within the next status line. The final response, and further ones, may come in pieces (C71_final_pieces_partial), the first of which contains the status line. The interim responses may be cut anywhere except within a status line (C71_interim_pieces_partial); the final response then begins a call of its own."
  },
  {
   "property": "C72",
   "status": "proved",
   "theorems": [
    "Props.C72_requests_leave_responses",
    "Props.C72_responses_leave_requests",
    "Props.C72_made_up_request",
    "Props.C72_request_cut_short"
   ],
   "note": ""
  },
  {
   "property": "C73",
   "status": "proved",
   "theorems": [
    "Props.C73_request_call",
    "Props.C73_response_call",
    "Props.C73_quiet",
    "Props.C73_close"
   ],
   "note": ""
  },
  {
   "property": "C74",
   "status": "partial",
   "theorems": [
    "Props.C74_request",
    "Props.C74_waits",
    "Props.C74_accepted",
    "Props.C74_accepted_pieces",
    "Props.C74_tunnel_partial",
    "Props.C74_credentials",
    "Props.C74_refused_partial",
    "Props.C74_goes_on",
    "Props.C74_again",
    "Props.C74_server_speaks_first",
    "Props.C74_refusal_reported_twice",
    "Props.C74_refusal_comes_back"
   ],
   "note": "Proved where the client speaks first in a tunnel that was granted, and for the request side after a response of any final status. False otherwise: if the server speaks first the tunnel is never recognised (C74_server_speaks_first). After a refusal the transaction of the CONNECT request is reported complete twice (C74_refusal_reported_twice) or, where complete transactions are removed, comes back empty (C74_refusal_comes_back). The response that grants the tunnel may come in pieces (C74_accepted_pieces); one that does not is taken in one call."
  },
  {
   "property": "C75",
   "status": "partial",
   "theorems": [
    "Props.C75_obeyed_partial",
    "Props.C75_accepted_partial",
    "Props.C75_request_over",
    "Props.C75_response_over",
    "Props.C75_start_ignored",
    "Props.C75_headers_ignored",
    "Props.C75_coded_stop",
    "Props.C75_coded_end_ignored"
   ],
   "note": "Proved for every callback that is given a transaction except the one for the start of a request, and for those that are given body data where bodies of that side are not decompressed. False otherwise: the refusal of the start of a request is ignored (C75_start_ignored), that of raw headers when it comes at the end of a call (C75_headers_ignored), that of the end of a compressed body (C75_coded_end_ignored), and STOP for compressed data becomes ERROR (C75_coded_stop)."
  },
  {
   "property": "C76",
   "status": "partial",
   "theorems": [
    "Props.C76_request",
    "Props.C76_response_partial",
    "Props.C76_response_data",
    "Props.C76_response_gap",
    "Props.C76_callback_data"
   ],
   "note": "Proved for requests, and for responses except a gap in a body that ends with the stream, where it is false: such a gap is answered DATA with no byte consumed (C76_response_gap). The condition on the callbacks is needed (C76_callback_data)."
  },
  {
   "property": "C77",
   "status": "proved",
   "theorems": [
    "Props.C77_nothing_taken_back",
    "Props.C77_flag_stays",
    "Props.C77_request_gap_marked",
    "Props.C77_response_gap_marked"
   ],
   "note": "For configurations without automatic destruction (the default). For the marks of gaps there must be a current transaction or room for one; without room the call is answered ERROR."
  },
  {
   "property": "C78",
   "status": "proved",
   "theorems": [
    "Props.C78_response_length",
    "Props.C78_request_length",
    "Props.C78_no_transaction"
   ],
   "note": "For configurations without automatic destruction (the default); the bytes are those given to the callbacks of the transaction, which run before those of the configuration."
  },
  {
   "property": "C79",
   "status": "proved",
   "theorems": [
    "Props.C79_request",
    "Props.C79_exchange",
    "Props.C79_cut"
   ],
   "note": "The close is proved for configurations that do not flush incomplete transactions (the default). C79_cut shows that the requirement that the line ends with the data of a call is needed."
  },
  {
   "property": "C80",
   "status": "partial",
   "theorems": [
    "Props.C80_only_refusals_partial",
    "Props.C80_not_pipelined_partial",
    "Props.C80_body_begun",
    "Props.C80_nobody_waits",
    "Props.C80_wrong_request_ended",
    "Props.C80_full_false"
   ],
   "note": "Partial because the full statement (Props.OnlyRefused) is false of the code: the refusal of one request ends whichever request is being read (C80_wrong_request_ended, C80_full_false). Proved in full when no other request is unanswered. That the refused request is complete and the next requests are read is C82_denied."
  },
  {
   "property": "C81",
   "status": "proved",
   "theorems": [
    "Props.C81_request",
    "Props.C81_response",
    "Props.C81_unanswered",
    "Props.C81_conversation",
    "Props.C81_null",
    "Props.C81_data",
    "Props.C81_flags",
    "Props.C81_uri"
   ],
   "note": ""
  },
  {
   "property": "C82",
   "status": "partial",
   "theorems": [
    "Props.C82_head",
    "Props.C82_permission",
    "Props.C82_body",
    "Props.C82_early",
    "Props.C82_refused",
    "Props.C82_next",
    "Props.C82_denied",
    "Props.C82_granted_partial"
   ],
   "note": "C82_denied is the whole exchange with a refusal, C82_granted_partial the whole exchange with permission; the others are their steps, from any state. Interim responses are as in C71. Partial because the final response must not be a 4xx to a request with an Expect field if requests have been sent after its body: the statement is then false in general (C80_wrong_request_ended)."
  },
  {
   "property": "C83",
   "status": "partial",
   "theorems": [
    "Props.C83_setting_ignored",
    "Props.C83_full_false",
    "Props.C83_field_removed_partial"
   ],
   "note": "Partial because the full statement (Props.PreventsDecompression) is false of the code: the decompressors are set up after the callback and the setting is overwritten, whatever it is (C83_setting_ignored). A callback that removes the Content-Encoding field does prevent decompression (C83_field_removed_partial)."
  },
  {
   "property": "C84",
   "status": "proved",
   "theorems": [
    "Props.C84_read_log",
    "Props.C84_nothing_lost",
    "Props.C84_null"
   ],
   "note": "The program is Spec.readLog; memory is tracked for log entries and strings (Model.CMem)."
  },
  {
   "property": "C85",
   "status": "partial",
   "theorems": [
    "Props.C85_call",
    "Props.C85_history_partial",
    "Props.C85_full_false"
   ],
   "note": "The counters are exact for the calls made while the stream is not stopped or in error; later calls are not counted. That the request counter is the number of bytes consumed is false: data handed back with DATA_OTHER and given again is counted twice (C85_full_false)."
  }
 ]
}