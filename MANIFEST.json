{"claims": [
 {"property": "C01", "status": "proved", "theorems": ["Verif.Token.C01_lossless", "Verif.Token.C01_prefix", "Verif.Token.C01_nul_drops"], "note": "full statement including the NUL exception"},
 {"property": "C02", "status": "proved", "theorems": ["Verif.Token.C02_terminates", "Verif.Token.C02_panic_iff"], "note": ""},
 {"property": "C03", "status": "proved", "theorems": ["Verif.Token.C03_kinds", "Verif.Token.C03_followed", "Verif.Token.C03_complete"], "note": ""},
 {"property": "C04", "status": "proved", "theorems": ["Verif.Element.C04_roundtrip", "Verif.Element.C04_injective", "Verif.Element.C04_shape"], "note": ""},
 {"property": "C05", "status": "proved", "theorems": ["Verif.Element.C05_one_token_iff", "Verif.Element.C05_followed"], "note": "exact characterisation of the texts that are one token"},
 {"property": "C06", "status": "proved", "theorems": ["Verif.Element.C06_text", "Verif.Element.C06_injective"], "note": ""},
 {"property": "C07", "status": "proved", "theorems": ["Verif.Element.C07_roundtrip", "Verif.Element.C07_opaque"], "note": ""},
 {"property": "C08", "status": "proved", "theorems": ["Verif.Element.C08_decode_iff", "Verif.Element.C08_panic_iff"], "note": "exact characterisation of success and of panics"},
 {"property": "C09", "status": "proved", "theorems": ["Verif.Element.C09_number", "Verif.Element.C09_digit", "Verif.Element.C09_digit_roundtrip", "Verif.Element.C09_accepts", "Verif.Element.C09_country"], "note": ""},
 {"property": "C10", "status": "proved", "theorems": ["Verif.Element.C10_date_iff", "Verif.Element.C10_date_roundtrip", "Verif.Element.C10_date_wide", "Verif.Element.C10_time_iff", "Verif.Element.C10_time_roundtrip"], "note": "exact characterisation of the accepted texts; fractions of a second are accepted too"},
 {"property": "C11", "status": "proved", "theorems": ["Verif.Element.C11_bool", "Verif.Element.C11_bool_never_valid", "Verif.Element.C11_code_iff", "Verif.Element.C11_code_member", "Verif.Element.C11_code_not_membership"], "note": "what the code accepts, exactly; membership in the set is refuted by a witness"},
 {"property": "C12", "status": "proved", "theorems": ["Verif.Element.C12_extract_iff", "Verif.Element.C12_leaf", "Verif.Element.C12_plus_unreadable", "Verif.Element.C12_colon_cut"], "note": "exact characterisation; elements are one level deep here, nested groups are covered by C13/C15"},
 {"property": "C13", "status": "proved", "theorems": ["Verif.Segment.C13_extract_iff", "Verif.Segment.C13_bytes", "Verif.Segment.C13_sound", "Verif.Segment.C13_plain", "Verif.Segment.C13_plus_cut", "Verif.Segment.C13_binary_cut"], "note": "exact for segments whose elements are fields; unconditional consequences for sound and plain contents; witnesses for the cut"},
 {"property": "C14", "status": "proved", "theorems": ["Verif.Message.C14_extract_iff", "Verif.Message.C14_segments", "Verif.Message.C14_prefix"], "note": "exact characterisation of success for every byte string"},
 {"property": "C15", "status": "proved", "theorems": ["Verif.Message.C15_structure", "Verif.Message.C15_plain", "Verif.Message.C15_pin_colon", "Verif.Message.C15_pin_plus", "Verif.Message.C15_nul", "Verif.Message.C15_zero_comma"], "note": "general theorem for undisturbing contents; witnesses for the contents that do disturb"},
 {"property": "C16", "status": "proved", "theorems": ["Verif.Message.C16_findSegments", "Verif.Message.C16_findSegment", "Verif.Message.C16_findSegment_none", "Verif.Message.C16_agree", "Verif.Message.C16_longer_id"], "note": "exact characterisation of both lookups, with the case in which they differ"},
 {"property": "C17", "status": "proved", "theorems": ["Verif.Message.C17_repeat", "Verif.Message.C17_lookup", "Verif.Message.C17_failing"], "note": "what repeated extraction returns, for any number of calls"},
 {"property": "C18", "status": "proved", "theorems": ["Verif.Message.C18_size", "Verif.Message.C18_cached", "Verif.Message.C18_renumbered"], "note": "first marshalling, and the cached bytes afterwards"},
 {"property": "C19", "status": "proved", "theorems": ["Verif.Message.C19_positions", "Verif.Message.C19_consecutive", "Verif.Message.C19_transmitted", "Verif.Message.C19_idempotent", "Verif.Message.C19_panics", "Verif.Message.C19_wire"], "note": "on the model of the message and on the wire"},
 {"property": "C20", "status": "proved", "theorems": ["Verif.Message.C20_encrypt", "Verif.Message.C20_encrypt_err", "Verif.Message.C20_wire"], "note": "the wire theorem is for the client's headers, which have no reference"},
 {"property": "C21", "status": "proved", "theorems": ["Verif.Segment.C21_bytes", "Verif.Segment.C21_roundtrip", "Verif.Segment.C21_accepts", "Verif.Segment.C21_setReference"], "note": "exact condition on the ID"},
 {"property": "C22", "status": "proved", "theorems": ["Verif.Domain.C22_classes", "Verif.Domain.C22_disjoint", "Verif.Domain.C22_none"], "note": ""},
 {"property": "C23", "status": "proved", "theorems": ["Verif.Message.C23_acknowledgements", "Verif.Message.C23_version"], "note": "exact; the message reference reaches only the first HIRMG, segment acknowledgements carry none"},
 {"property": "C24", "status": "proved", "theorems": ["Verif.Dialog.C24_numbers", "Verif.Dialog.C24_gap"], "note": ""},
 {"property": "C25", "status": "proved", "theorems": ["Verif.Dialog.C25_dialog_id"], "note": ""},
 {"property": "C26", "status": "proved", "theorems": ["Verif.Dialog.C26_closed", "Verif.Dialog.C26_exactly"], "note": ""},
 {"property": "C27", "status": "proved", "theorems": ["Verif.Dialog.C27_success", "Verif.Dialog.C27_errors", "Verif.Dialog.C27_end_panics"], "note": ""},
 {"property": "C28", "status": "proved", "theorems": ["Verif.Client.C28_client", "Verif.Dialog.C28_invariant", "Verif.Dialog.C28_acquired", "Verif.Dialog.C28_requested", "Verif.Dialog.C28_failed"], "note": ""},
 {"property": "C29", "status": "proved", "theorems": ["Verif.Dialog.C29_accounts", "Verif.Dialog.C29_per_answer", "Verif.Dialog.C29_duplicates"], "note": ""},
 {"property": "C30", "status": "proved", "theorems": ["Verif.Client.C30_client", "Verif.Dialog.C30_invariant", "Verif.Dialog.C30_negotiated", "Verif.Dialog.C30_pin"], "note": ""},
 {"property": "C31", "status": "proved", "theorems": ["Verif.Dialog.C31_start", "Verif.Dialog.C31_after_send", "Verif.Dialog.C31_first"], "note": ""},
 {"property": "C32", "status": "proved", "theorems": ["Verif.Segment.C32_balance", "Verif.Segment.C32_sepaBalance", "Verif.Segment.C32_transactions", "Verif.Segment.C32_tan", "Verif.Segment.C32_wire"], "note": "exact: result and failure for every list of supported segments"},
 {"property": "C33", "status": "proved", "theorems": ["Verif.Segment.C33_never", "Verif.Segment.C33_builder"], "note": "the claim is refuted for every list of versions"},
 {"property": "C34", "status": "proved", "theorems": ["Verif.Segment.C34_swapped", "Verif.Segment.C34_not_offered"], "note": "the claim is refuted: exact result for every list of versions"},
 {"property": "C35", "status": "proved", "theorems": ["Verif.Client.C35_pages", "Verif.Client.C35_outcome", "Verif.Client.C35_stopped_clock", "Verif.Client.C35_bound", "Verif.Client.C35_sepa_never"], "note": "for every bank, clock and number of pages: result and log determine each other; order of pages needs an advancing clock, refuted otherwise"},
 {"property": "C36", "status": "proved", "theorems": ["Verif.Client.C36_sorted", "Verif.Client.C36_order", "Verif.Client.C36_ties", "Verif.Client.C36_same_time"], "note": "exact for every list of pages; ties are settled for up to twelve pages"},
 {"property": "C37", "status": "proved", "theorems": ["Verif.Swift.C37_terminates", "Verif.Swift.C37_lossless", "Verif.Swift.C37_prefix", "Verif.Swift.C37_kinds", "Verif.Swift.C37_nul_drops"], "note": ""},
 {"property": "C38", "status": "proved", "theorems": ["Verif.Swift.C38_messages", "Verif.Swift.C38_tags", "Verif.Swift.C38_unfinished", "Verif.Swift.C38_tags_complete", "Verif.Swift.C38_messages_complete", "Verif.Swift.C38_elements", "Verif.Swift.C38_multiline_lost"], "note": ""},
 {"property": "C39", "status": "proved", "theorems": ["Verif.Swift.C39_lines", "Verif.Swift.C39_transactions", "Verif.Swift.C39_second", "Verif.Swift.C39_orphan", "Verif.Swift.C39_unknown"], "note": "invariant over the tags read; which description belongs to which line is exact"},
 {"property": "C40", "status": "proved", "theorems": ["Verif.Swift.C40_booked", "Verif.Swift.C40_unbooked"], "note": "exact sign for lines with booking date; the swallowed indicator is proved"},
 {"property": "C41", "status": "proved", "theorems": ["Verif.Swift.C41_year", "Verif.Swift.C41_nearest", "Verif.Swift.C41_late"], "note": "exact year; nearest and late cases (between five and seven months both are about half a year away)"},
 {"property": "C42", "status": "proved", "theorems": ["Verif.Swift.C42_six", "Verif.Swift.C42_four"], "note": "exact characterisation of accepted dates for reference years 1000 to 9999"},
 {"property": "C43", "status": "proved", "theorems": ["Verif.Swift.C43_booked", "Verif.Swift.C43_unbooked", "Verif.Swift.C43_references_total", "Verif.Swift.C43_reversal"], "note": "exact division of the references, including when the parser crashes"},
 {"property": "C44", "status": "proved", "theorems": ["Verif.Swift.C44_fields", "Verif.Swift.C44_out_of_order", "Verif.Swift.C44_short"], "note": "ascending order on any number of lines; crash for other orders"},
 {"property": "C45", "status": "proved", "theorems": ["Verif.Iban.C45_accepts", "Verif.Iban.C45_valid", "Verif.Iban.C45_new", "Verif.Iban.C45_minus", "Verif.Iban.C45_plus"], "note": "text is ASCII in the model; signs before the BBAN are accepted by the code and covered by separate theorems"},
 {"property": "C46", "status": "proved", "theorems": ["Verif.Iban.C46_from", "Verif.Iban.C46_roundtrip", "Verif.Iban.C46_panic", "Verif.Iban.C46_valid", "Verif.Iban.C46_alternate"], "note": "exact characterisation"},
 {"property": "C47", "status": "proved", "theorems": ["Verif.Iban.C47_substitution", "Verif.Iban.C47_transposition", "Verif.Iban.C47_check_digits", "Verif.Iban.C47_undetected"], "note": "substitutions within digits or within letters, and transpositions, with the exact exceptions"},
 {"property": "C48", "status": "proved", "theorems": ["Verif.Iban.C48_accessors", "Verif.Iban.C48_print", "Verif.Iban.C48_blanks"], "note": "white space is ASCII white space"},
 {"property": "C49", "status": "proved", "theorems": ["Verif.Iban.C49_german"], "note": "the length is right exactly for nine or ten digits"},
 {"property": "C50", "status": "proved", "theorems": ["Verif.Element.C50_bytes", "Verif.Element.C50_text"], "note": ""},
 {"property": "C51", "status": "proved", "theorems": ["Verif.Transport.C51_roundtrip", "Verif.Transport.C51_shape", "Verif.Transport.C51_transparent", "Verif.Transport.C51_error"], "note": ""},
 {"property": "C52", "status": "proved", "theorems": ["Verif.Transport.C52_encrypted"], "note": ""},
 {"property": "C53", "status": "proved", "theorems": ["Verif.Crypto.C53_tables", "Verif.Crypto.C53_hangs", "Verif.Crypto.C53_refused", "Verif.Crypto.C53_block", "Verif.Crypto.C53_roundtrip", "Verif.Crypto.C53_full", "Verif.Crypto.C53_short", "Verif.Crypto.C53_garbled", "Verif.Crypto.C53_decides", "Verif.Crypto.C53_unchecked", "Verif.Crypto.C53_sizes", "Verif.Crypto.C53_padBits"], "note": "C53_full is the round trip that holds; C53_roundtrip, C53_garbled, C53_refused and C53_hangs say what happens to all other messages and sizes of moduli, C53_decides what a decoder accepts."},
 {"property": "C54", "status": "proved", "theorems": ["Verif.Crypto.C54_numbers", "Verif.Crypto.C54_crt_panics", "Verif.Crypto.C54_crt_formula", "Verif.Crypto.C54_accepts", "Verif.Crypto.C54_blocks"], "note": "C54_numbers is the property on numbers, C54_blocks on byte blocks; C54_crt_panics is the defect of keys with factors, C54_crt_formula shows that only allocations are missing there."},
 {"property": "C55", "status": "proved", "theorems": ["Verif.Domain.C55_query_roundtrip", "Verif.Domain.C55_query_iff", "Verif.Domain.C55_json_text", "Verif.Domain.C55_json_unquoted", "Verif.Domain.C55_json_roundtrip", "Verif.Domain.C55_json_unset", "Verif.Domain.C55_date_json", "Verif.Domain.C55_date_text", "Verif.Domain.C55_json_zero"], "note": "exact for dates of years 1-9999; the quoted-string decoder is a parameter; witnesses for unset dates"},
 {"property": "C56", "status": "proved", "theorems": ["Verif.Bankinfo.C56_found", "Verif.Bankinfo.C56_missing", "Verif.Bankinfo.C56_sound", "Verif.Bankinfo.C56_version", "Verif.Bankinfo.C56_version_panic", "Verif.Bankinfo.C56_version_missing"], "note": ""},
 {"property": "C57", "status": "proved", "theorems": ["Verif.Domain.C57_found", "Verif.Domain.C57_missing"], "note": ""},
 {"property": "C58", "status": "proved", "theorems": ["Verif.Bank.C58_national", "Verif.Bank.C58_international", "Verif.Bank.C58_seizable", "Verif.Bank.C58_no_sepa", "Verif.Bank.C58_wrong_year"], "note": "the code is shown to report another date than the one transmitted (exact offset); the other parts of the balance are reported as transmitted"},
 {"property": "C59", "status": "proved", "theorems": ["Verif.Element.C59_amount", "Verif.Element.C59_no_amount", "Verif.Element.C59_limit", "Verif.Element.C59_without"], "note": "the claim is refuted for every entry with an amount; entries without one are characterised"},
 {"property": "C60", "status": "proved", "theorems": ["Verif.Element.C60_reads", "Verif.Element.C60_roundtrip", "Verif.Element.C60_writes"], "note": "exact conditions for the round trip"},
 {"property": "C61", "status": "proved", "theorems": ["Verif.Message.C61_accepts", "Verif.Message.C61_separator", "Verif.Message.C61_wire", "Verif.Message.C61_wire_separator"], "note": "exact for elements without + and '; elements with an escaped + or ' cannot be decoded (proved)"},
 {"property": "C62", "status": "proved", "theorems": ["Verif.Element.C62_amount", "Verif.Element.C62_float"], "note": "floats are modelled as canonical decimals, see DESIGN.md"},
 {"property": "C63", "status": "proved", "theorems": ["Verif.Element.C63_number_valid", "Verif.Element.C63_alnum_valid", "Verif.Element.C63_binary_never_valid", "Verif.Element.C63_code_never_valid", "Verif.Element.C63_time_valid"], "note": ""},
 {"property": "C64", "status": "proved", "theorems": ["Verif.Element.C64_rejected", "Verif.Element.C64_pintan", "Verif.Element.C64_dropped", "Verif.Element.C64_profile"], "note": "the claim is refuted for every element the library writes"},
 {"property": "C65", "status": "proved", "theorems": ["Verif.Message.C65_reads", "Verif.Message.C65_extractor", "Verif.Message.C65_panic"], "note": "decoders of the other segment kinds are a parameter; exact conditions for success and panic"},
 {"property": "C66", "status": "proved", "theorems": ["Verif.Message.C66_sign"], "note": ""},
 {"property": "C67", "status": "proved", "theorems": ["Verif.Message.C67_supported"], "note": ""},
 {"property": "C68", "status": "proved", "theorems": ["Verif.Message.C68_position"], "note": ""},
 {"property": "C69", "status": "proved", "theorems": ["Verif.Client.C69_client", "Verif.Dialog.C69_history", "Verif.Segment.C69_unreachable"], "note": "refuted for every readable response, every history of a dialog and every history of a client"},
 {"property": "C70", "status": "proved", "theorems": ["Verif.Element.C70_reads", "Verif.Element.C70_roundtrip"], "note": "exact conditions for the round trip"},
 {"property": "C71", "status": "proved", "theorems": ["Verif.Element.C71_reads"], "note": ""},
 {"property": "C72", "status": "proved", "theorems": ["Verif.Segment.C72_balance", "Verif.Segment.C72_transactions", "Verif.Segment.C72_bank"], "note": "exact condition for the echo"},
 {"property": "C73", "status": "proved", "theorems": ["Verif.Segment.C73_given", "Verif.Segment.C73_default", "Verif.Segment.C73_order", "Verif.Segment.C73_inverted"], "note": ""},
 {"property": "C74", "status": "proved", "theorems": ["Verif.Transport.C74_damaged", "Verif.Transport.C74_broken", "Verif.Transport.C74_lost_error"], "note": "the claim is refuted for every damage at a group boundary"},
 {"property": "C75", "status": "proved", "theorems": ["Verif.Transport.C75_status"], "note": ""},
 {"property": "C76", "status": "proved", "theorems": ["Verif.Dialog.C76_no_pin", "Verif.Dialog.C76_unsecured"], "note": ""},
 {"property": "C77", "status": "proved", "theorems": ["Verif.Swift.C77_accepted", "Verif.Swift.C77_crash", "Verif.Swift.C77_no_account"], "note": "exact conditions"},
 {"property": "C78", "status": "proved", "theorems": ["Verif.Swift.C78_balances", "Verif.Swift.C78_fields"], "note": "exact values; the dropped sign is stated"},
 {"property": "C79", "status": "proved", "theorems": ["Verif.Client.C79_created", "Verif.Client.C79_fresh", "Verif.Client.C79_unknown"], "note": "exact condition; the crash is characterised"},
 {"property": "C80", "status": "proved", "theorems": ["Verif.Client.C80_pages"], "note": "result and log determine each other for every number of pages, except if the answer to the last dialog end crashes the dialog"},
 {"property": "C81", "status": "proved", "theorems": ["Verif.Client.C81_balances", "Verif.Client.C81_no_balance", "Verif.Client.C81_status"], "note": "exact for every state; by C69 no client reaches a state in which Status sends its request"},
 {"property": "C82", "status": "proved", "theorems": ["Verif.Client.C82_accounts"], "note": "exact list; the duplicates are part of the statement"},
 {"property": "C83", "status": "proved", "theorems": ["Verif.Bank.C83_status", "Verif.Bank.C83_late"], "note": ""},
 {"property": "C84", "status": "proved", "theorems": ["Verif.Bank.C84_booked", "Verif.Bank.C84_unbooked_only"], "note": ""},
 {"property": "C85", "status": "proved", "theorems": ["Verif.Dialog.C85_knowledge", "Verif.Dialog.C85_contents"], "note": "exact contents of every message of every call in every history"},
 {"property": "C86", "status": "proved", "theorems": ["Verif.Dialog.C86_bank_data", "Verif.Dialog.C86_unchanged"], "note": "for complete descriptions of the bank (HIBPA and HIPINS readable) and for histories without one; answers that describe it in part are covered by the fold in bank_part"},
 {"property": "C87", "status": "proved", "theorems": ["Verif.Client.C87_only_needed", "Verif.Client.C87_first", "Verif.Client.C87_again"], "note": "exact reason for every synchronisation; first message of every call while no parameters are known"},
 {"property": "C88", "status": "proved", "theorems": ["Verif.Bank.C88_client_system"], "note": "exact for every ID and both versions; a segment without ID proved to crash"},
 {"property": "C89", "status": "proved", "theorems": ["Verif.Bank.C89_bank"], "note": "exact for every content in the specification AboutBank; escape signs kept and crash on an empty name proved"},
 {"property": "C90", "status": "proved", "theorems": ["Verif.Bank.C90_pins"], "note": "exact for every content in the specification AboutPins, refusals included"},
 {"property": "C91", "status": "proved", "theorems": ["Verif.Bank.C91_user", "Verif.Bank.C91_account"], "note": "exact for every content in AboutUser and AboutAccount and all known versions; losses, refusals and crashes included"},
 {"property": "C92", "status": "proved", "theorems": ["Verif.Bank.C92_functions", "Verif.Bank.C92_names"], "note": "exact for every list of procedures; names for ASCII texts"},
 {"property": "C93", "status": "proved", "theorems": ["Verif.Bank.C93_compression", "Verif.Bank.C93_communication", "Verif.Bank.C93_security", "Verif.Bank.C93_signature", "Verif.Bank.C93_message"], "note": "Exact crash conditions of four segments, and that a crashing segment after readable ones crashes the reading of the message. Segments with persons (HIKIF) or certificates crash alike; they are modelled but have no theorem."},
 {"property": "C94", "status": "proved", "theorems": ["Verif.Bank.C94_types", "Verif.Bank.C94_unknown"], "note": "For every byte string that can be read as a message."},
 {"property": "C95", "status": "proved", "theorems": ["Verif.Bank.C95_content", "Verif.Bank.C95_answer", "Verif.Bank.C95_learned", "Verif.Bank.C95_synchronised"], "note": "From the bytes of the answer to the state of the dialog. The segments are HIRMG, HIRMS, HISYN, HIBPA, HIPINS, HITANS, HIUPA, HIUPD in the versions of C88 to C92 and any unknown ones."},
 {"property": "C96", "status": "proved", "theorems": ["Verif.Dialog.C96_secured", "Verif.Dialog.C96_pin", "Verif.Dialog.C96_pin_damaged", "Verif.Dialog.C96_anonymous"], "note": "C96_secured describes the bytes for every history of calls with a new PIN/TAN dialog; C96_pin and C96_pin_damaged say where the PIN stands; C96_anonymous does the same for unsecured messages."},
 {"property": "C97", "status": "proved", "theorems": ["Verif.Transport.C97_answer", "Verif.Transport.C97_unreadable", "Verif.Bank.C97_history", "Verif.Bank.C97_jobs", "Verif.Bank.C97_pin"], "note": "C97_history is the transparency for whole histories of a PIN/TAN dialog, for messages of at most 2^48 bytes; C97_jobs shows that the client's jobs meet its hypothesis; C97_answer and C97_unreadable say what one exchange does for any decoders. C97_pin refutes that the PIN is hidden."},
 {"property": "C98", "status": "proved", "theorems": ["Verif.Client.C98_no_panic", "Verif.Client.C98_enough", "Verif.Client.C98_url", "Verif.Client.C98_agree", "Verif.Client.C98_hidden"], "note": "C98_enough and C98_url are exact for all configurations that give a bank ID only; C98_no_panic, C98_agree and C98_hidden add the rest. The facts about the table are evaluated by the kernel over all 3645 entries, which are the whole domain."},
 {"property": "C99", "status": "proved", "theorems": ["Verif.Message.C99_form", "Verif.Message.C99_collides", "Verif.Message.C99_window", "Verif.Message.C99_users", "Verif.Message.C99_not_unique", "Verif.Dialog.C99_sent"], "note": "C99_window and C99_users say what the reference tells apart, C99_collides and C99_not_unique what it does not, C99_form its form and C99_sent that every secured message of any history carries it."},
 {"property": "C100", "status": "proved", "theorems": ["Verif.Swift.C100_signed", "Verif.Swift.C100_statements", "Verif.Swift.C100_determined", "Verif.Swift.C100_overdrawn"], "note": "C100_statements is the property for statements of any length written by the specification's writer (StatementSpec), except that a continuation line of an entry must not be one of those that crash the reader (C43_references_total describes them); C100_determined shows that nothing in a reported transaction is left open; C100_overdrawn is the lost sign. The sign of reversals and of entries without a booking date is stated in Reported."},
 {"property": "C101", "status": "proved", "theorems": ["Verif.Bank.C101_transactions", "Verif.Bank.C101_balances", "Verif.Bank.C101_sepa_balances"], "note": "The exception in all three theorems is an answer to the last dialog end that crashes the dialog (C29). The statements are those of C100. C102 applies these theorems to concrete banks, which are their examples. For SepaAccountBalances the answers must not hold balances that name the account by number only (C58 says what happens then). Status is left out: it can never be sent to a bank whose supported segments were read from the bank (C69)."},
 {"property": "C102", "status": "proved", "theorems": ["Verif.Bank.C102_transactions", "Verif.Bank.C102_balances", "Verif.Bank.C102_sepa_balances"], "note": "The three theorems need a bank that sends no new bank parameters at the start of a dialog, since these may take away the support for the request (C95 says what the dialog then knows). C102_transactions ends within any fuel of at least the number of pages."},
 {"property": "C103", "status": "proved", "theorems": ["Verif.Bank.C103_new", "Verif.Bank.C103_transactions", "Verif.Bank.C103_balances", "Verif.Bank.C103_sepa_balances", "Verif.Bank.C103_accounts"], "note": "The closing of the synchronisation must not report an error, unlike the closing of other dialogs (C102). The assigned ID must differ from \"0\", which the code takes for \"not assigned\"."},
 {"property": "C104", "status": "proved", "theorems": ["Verif.Keys.C104_renewal", "Verif.Keys.C104_transmission", "Verif.Keys.C104_exponent", "Verif.Keys.C104_keys", "Verif.Keys.C104_received", "Verif.Keys.C104_reason", "Verif.Keys.C104_confirmation", "Verif.Keys.C104_renewal_bytes", "Verif.Keys.C104_request_bytes", "Verif.Keys.C104_reason_bytes", "Verif.Rdh.C104_dialog", "Verif.Rdh.C104_first"], "note": "Negative results where the code departs from the intent: no key can be renewed or transmitted, every revocation reason is accepted, an RDH dialog can do nothing. The signature of an RDH message is a parameter of the model (any function), and RSA key generation is a parameter that gives any modulus."},
 {"property": "C105", "status": "proved", "theorems": ["Verif.Bank.C105_unread", "Verif.Client.C105_information", "Verif.Client.C105_bytes", "Verif.Client.C105_access"], "note": "What is printed is the value of the modelled call. C105_unread is the negative part: answers with persons entitled to dispose (HIKIF version 1) or with a way of access (HIKOM version 3) cannot be read. The exception in C105_information and C105_access is an answer to the dialog end that crashes the dialog."},
 {"property": "C106", "status": "proved", "theorems": ["Verif.Domain.C106_refused", "Verif.Domain.C106_told", "Verif.Domain.C106_status", "Verif.Domain.C106_unambiguous"], "note": "`%q` is a parameter: any function that is injective and gives one line. The last two examples show what Plain excludes and what SameReport leaves open."},
 {"property": "C107", "status": "proved", "theorems": ["Verif.Bankinfo.C107_parse", "Verif.Bankinfo.C107_files", "Verif.Bankinfo.C107_found", "Verif.Bankinfo.C107_any"], "note": "The reader of CSV files is a parameter (a line is a function from column names to texts), and sort.Sort is any result its documentation allows. The text of the generated Go file is not modelled. C107_any is the negative part."},
 {"property": "C108", "status": "proved", "theorems": ["Verif.Transport.C108_sent", "Verif.Transport.C108_refused", "Verif.Transport.C108_echo", "Verif.Transport.C108_unchanged"], "note": "The table of characters is a parameter. UTF-8 is Lean's own String.utf8EncodeChar; decodeRune and fullRune are proved against it. C108_unchanged is the negative part. io.Copy passes the text in pieces, which the model leaves out."},
 {"property": "C109", "status": "proved", "theorems": ["Verif.Domain.Printed.C109_balances", "Verif.Domain.Printed.C109_sepa", "Verif.Domain.Printed.C109_glued", "Verif.Domain.Printed.C109_transactions", "Verif.Domain.Printed.C109_informations", "Verif.Domain.Printed.C109_transaction", "Verif.Domain.Printed.C109_joined", "Verif.Domain.Printed.C109_balance", "Verif.Domain.Printed.C109_information"], "note": "text/tabwriter is modelled for texts without vertical tabs, form feeds and escapes; its column blocks are given in closed form. How numbers and dates are printed is a parameter. C109_glued, C109_joined and the case of an empty product name in C109_balances are the negative parts."},
 {"property": "C110", "status": "proved", "theorems": ["Verif.Cli.C110_missing", "Verif.Cli.C110_unknown", "Verif.Cli.C110_balances", "Verif.Cli.C110_sepa_balances", "Verif.Cli.C110_transactions", "Verif.Cli.C110_transactions_sepa", "Verif.Cli.C110_accounts", "Verif.Cli.C110_asks_balances", "Verif.Cli.C110_asks_sepa", "Verif.Cli.C110_asks_transactions"], "note": "A run begins with the values of the flags; cobra, viper and the prompt for the PIN are not modelled, and how numbers and dates are printed is a parameter. C110_unknown, C110_transactions_sepa, the flag true in C110_asks_balances and C110_asks_sepa and the two lists in C110_accounts are the negative parts."},
 {"property": "C111", "status": "proved", "theorems": ["Verif.Bank.C111_writes", "Verif.Bank.C111_transactions", "Verif.Bank.C111_balances", "Verif.Bank.C111_sepa_balances", "Verif.Bank.C111_accounts", "Verif.Bank.C111_stuck_balances", "Verif.Bank.C111_stuck_transactions"], "note": "C111_writes is the invariant over all histories; the other theorems put it together with C102 and C103. Wanted: PIN not empty, texts of the configuration and control references in Latin-1. A client that lost its client system ID but knows the bank is only covered if the bank names the same segments as before. C111_stuck_balances and C111_stuck_transactions are the negative parts."},
 {"property": "C112", "status": "proved", "theorems": ["Verif.Client.C112_counted", "Verif.Client.C112_identification", "Verif.Client.C112_own_invalid", "Verif.Element.C112_valid", "Verif.Element.C112_header", "Verif.Element.C112_referencing", "Verif.Element.C112_acknowledgement", "Verif.Element.C112_new_header", "Verif.Element.C112_read_header", "Verif.Element.C112_new_acknowledgement", "Verif.Element.C112_usual_acknowledgement", "Verif.Element.C112_length", "Verif.Element.C112_single_length", "Verif.Element.C112_text_bound", "Verif.Element.C112_bytes_not_characters"], "note": "C112_valid is by induction over nested elements; its hypothesis that codes have ordered sets holds for all codes the library makes (NewCode sorts) or reads (the set is empty). What Go prints for floats and times is a parameter. C112_usual_acknowledgement, C112_bytes_not_characters and C112_own_invalid are the negative parts. No code of the library calls IsValid."},
 {"property": "C113", "status": "proved", "theorems": ["Verif.Element.C113_elements", "Verif.Element.C113_shorter", "Verif.Segment.C113_segments", "Verif.Segment.C113_segment_shorter", "Verif.Segment.C113_own", "Verif.Message.C113_find", "Verif.Message.C113_find_all", "Verif.Message.C113_marshaled", "Verif.Message.C113_marshaled_all"], "note": "C113_elements and C113_segments are exact; C113_shorter and C113_segment_shorter give the direction of every difference. C113_own, C113_marshaled and the panic cases of C113_find and C113_find_all are the negative parts."},
 {"property": "C114", "status": "proved", "theorems": ["Verif.Keys.C114_signature", "Verif.Keys.C114_encryption", "Verif.Keys.C114_exponent", "Verif.Keys.C114_uses", "Verif.Keys.C114_reference", "Verif.Keys.C114_signed"], "note": "crypto/rsa is modelled after PKCS #1 version 1.5 with the value of the random padding as a parameter; blinding, the Chinese remainder computation and failures of the random source are left out. The hash function (RIPEMD-160) is a parameter. C114_signed is the negative part."},
 {"property": "C115", "status": "proved", "theorems": ["Verif.Message.C115_repeated", "Verif.Message.C115_times", "Verif.Message.C115_first", "Verif.Message.C115_segment", "Verif.Message.C115_longer_id"], "note": "C115_repeated counts exactly, for all sequences of calls, by induction on the calls; C115_segment holds whether earlier calls failed or not. C115_longer_id and C115_times are the negative parts. The decoders are a parameter."},
 {"property": "C116", "status": "proved", "theorems": ["Verif.Bank.C116_versions", "Verif.Bank.C116_any_id", "Verif.Bank.C116_nothing"], "note": "Proved for the thirteen functions of the generated files; the lookup in the table of known segments is the specification. Two disagreements are proved with witnesses: the ID is not checked, and bytes without elements cause a panic."},
 {"property": "C117", "status": "proved", "theorems": ["Verif.Logger.C117_outside", "Verif.Logger.C117_inside", "Verif.Logger.C117_lost", "Verif.Logger.C117_panic", "Verif.Logger.C117_clients", "Verif.Logger.C117_info", "Verif.Logger.C117_information"], "note": "Programs are trees of log calls and switches, without concurrency. That WithDebugLogging turns debugging off instead of restoring it, and leaves it on after a panic, is proved as it is (C117_lost, C117_panic)."},
 {"property": "C118", "status": "proved", "theorems": ["Verif.Element.C118_text", "Verif.Element.C118_number", "Verif.Element.C118_date", "Verif.Element.C118_time", "Verif.Element.C118_bool", "Verif.Element.C118_binary", "Verif.Element.C118_float"], "note": "Leaf elements; amounts are decimals as in C62 (no binary rounding)."},
 {"property": "C119", "status": "proved", "theorems": ["Verif.Dialog.C119_same"], "note": "The claim is proved as an equivalence, with the exception as its second case. The empty PIN is left out."},
 {"property": "C120", "status": "proved", "theorems": ["Verif.Generator.C120_found", "Verif.Generator.C120_refused", "Verif.Generator.C120_unsupported", "Verif.Generator.C120_roundtrip", "Verif.Generator.C120_silent", "Verif.Generator.C120_versions", "Verif.Generator.C120_sync", "Verif.Generator.C120_same_line"], "note": "Source files are syntax trees reduced to what the generator looks at; the Go parser and text/template are not modelled, the meaning of the produced text is. `sort.Sort` is any function that sorts by line."},
 {"property": "C121", "status": "proved", "theorems": ["Verif.Bank.C121_versions", "Verif.Bank.C121_languages", "Verif.Bank.C121_pin_jobs", "Verif.Bank.C121_pin_jobs_roundtrip", "Verif.Bank.C121_allowed"], "note": "Exact conditions for each kind of list. For permitted transactions the texts are assumed free of + and '."},
 {"property": "C122", "status": "proved", "theorems": ["Verif.Swift.C122_account", "Verif.Swift.C122_number", "Verif.Swift.C122_text_and_number", "Verif.Swift.C122_float", "Verif.Swift.C122_last", "Verif.Swift.C122_head", "Verif.Swift.C122_one_slash"], "note": "Exact conditions for single tags, an invariant over the tags of any message, and the writer of C100 for whole statements."},
 {"property": "C123", "status": "proved", "theorems": ["Verif.Bank.C123_answer", "Verif.Dialog.C123_call", "Verif.Dialog.C123_history"], "note": "An invariant over all calls (the dialog's texts stay Latin-1) with a rule for each step of a call; the condition on answers is an equivalence for the program's decoders."},
 {"property": "C124", "status": "proved", "theorems": ["Verif.Segment.C124_segment", "Verif.Segment.C124_message", "Verif.Segment.C124_balance", "Verif.Segment.C124_information", "Verif.Segment.C124_transactions", "Verif.Segment.C124_status", "Verif.Segment.C124_tan", "Verif.Segment.C124_balance_same", "Verif.Segment.C124_cut"], "note": "`standard` is the reader; it shares nothing with the library's lexer. `partsOf` gives the texts and data of an element. `C124_cut` shows that the condition on the ends of texts is needed."},
 {"property": "C125", "status": "proved", "theorems": ["Verif.Dialog.C125_secured", "Verif.Dialog.C125_unsecured", "Verif.Dialog.C125_same", "Verif.Dialog.C125_exchange", "Verif.Dialog.C125_exchangePlain", "Verif.Dialog.C125_no_bank"], "note": "`ReadSecured` and `ReadPlain` say how the message must be read. `C125_exchange` is for the dialog as it is. `C125_same` says that nothing is lost in the bytes. `C125_no_bank` is the case of an empty bank number."},
 {"property": "C126", "status": "proved", "theorems": ["Verif.Client.C126_balances", "Verif.Client.C126_status", "Verif.Client.C126_sepa_balances", "Verif.Client.C126_transactions", "Verif.Client.C126_accounts", "Verif.Client.C126_new", "Verif.Client.C126_client", "Verif.Dialog.C126_secured", "Verif.Dialog.C126_anonymous"], "note": "`CleanBank` and `CleanText` say which texts are allowed; `Understood`, `Asked` and `Wired` are the specification. `C126_secured` and `C126_anonymous` are for the dialog, the others for the client."},
 {"property": "C127", "status": "proved", "theorems": ["Verif.Bank.C127_statement", "Verif.Bank.C127_balance", "Verif.Bank.C127_sepa_balance", "Verif.Bank.C127_line", "Verif.Client.C127_accounts", "Verif.Client.C127_balances", "Verif.Client.C127_status", "Verif.Client.C127_sepa_balances", "Verif.Client.C127_transactions", "Verif.Client.C127_information", "Verif.Client.C127_access", "Verif.Client.C127_history"], "note": "The theorems in Verif/Client are for any decoders and views; those in Verif/Bank say exactly, for the decoders of the program, which segments crash their readers. `C127_history` carries the condition of the dialog through any history."},
 {"property": "C128", "status": "proved", "theorems": ["Verif.Generator.C128_piece", "Verif.Generator.C128_set", "Verif.Generator.C128_error", "Verif.Generator.C128_roundtrip", "Verif.Generator.C128_string"], "note": "`Pieces` and `Names` are the specification of the accepted texts."},
 {"property": "C129", "status": "proved", "theorems": ["Verif.Generator.C129_readers", "Verif.Generator.C129_index", "Verif.Generator.C129_types"], "note": "`sources` relates each ID and version to the type in the source file and to the segment its fields make, by name; `Bank.known` are the checked-in readers. The source files were transcribed by a script."},
 {"property": "C130", "status": "proved", "theorems": ["Verif.Bank.C130_add_fails", "Verif.Bank.C130_add", "Verif.Bank.C130_twice", "Verif.Bank.C130_order", "Verif.Bank.C130_package"], "note": "`registrations` are the calls in the package; `decoderFor decoders` is what the model of messages uses."},
 {"property": "C131", "status": "proved", "theorems": ["Verif.Domain.Today.C131_calendar", "Verif.Domain.Today.C131_date", "Verif.Domain.Today.C131_frame", "Verif.Domain.Today.C131_location", "Verif.Domain.Today.C131_utc", "Verif.Domain.Today.C131_today"], "note": "The calendar of Go's `time` is modelled and shown to be the Gregorian one (C131_calendar). The violation is C131_today with the case `night`."},
 {"property": "C132", "status": "proved", "theorems": ["Verif.Bankinfo.GoText.C132_file", "Verif.Bankinfo.GoText.C132_institute", "Verif.Bankinfo.GoText.C132_program"], "note": "`GoText.compile` is a reader after the Go specification (tokens, automatic semicolons, escapes, composite literals with duplicate and unknown fields refused). `format.Source` is left out."},
 {"property": "C133", "status": "proved", "theorems": ["Verif.Generator.C133_versioned", "Verif.Generator.C133_complete"], "note": "Builds on C128 (flag), C120 (generator), C129 (readers of single versions) and C116 (readers by version)."},
 {"property": "C134", "status": "proved", "theorems": ["Verif.Dialog.C134_history", "Verif.Dialog.C134_results"], "note": "Stated over pairs of runs (non-interference). The bank's indifference is a hypothesis on the transport; a PIN that is empty or not Latin-1 is not sendable and excluded."},
 {"property": "C135", "status": "proved", "theorems": ["Verif.Generator.Command.C135_names", "Verif.Generator.Command.C135_others", "Verif.Generator.Command.C135_failure", "Verif.Generator.Command.C135_success", "Verif.Generator.Command.C135_destroyed", "Verif.Generator.Command.C135_generate", "Verif.Generator.Command.C135_order", "Verif.Generator.Command.C135_segment"], "note": "Parsing and printing Go and the generators are parameters; go generate is modelled as running the lines until one fails. C135_destroyed is a negative result."},
 {"property": "C136", "status": "proved", "theorems": ["Verif.Dialog.C136_history", "Verif.Dialog.C136_results", "Verif.Dialog.C136_any", "Verif.Dialog.C136_torn"], "note": "The order is a number per step; taking the element at that number modulo the length gives every element. C136_any and C136_torn are the negative half."},
 {"property": "C137", "status": "proved", "theorems": ["Verif.Dialog.C137_history", "Verif.Dialog.C137_results", "Verif.Dialog.C137_lengths"], "note": "The clock is read once for the signature and once for the encryption of a message. The bank may look at everything else, lengths included."},
 {"property": "C138", "status": "proved", "theorems": ["Verif.Dialog.C138_send", "Verif.Dialog.C138_user", "Verif.Dialog.C138_anonymous", "Verif.Dialog.C138_leftover"], "note": "The supported segments and all parameters the dialog stores are taken to be equal in both states. C138_leftover is the negative half, with a reachable state."}
]}
