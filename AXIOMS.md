# Axioms of the property theorems

What `Lean.collectAxioms` reports for every theorem named in MANIFEST.json. The command below,
put into a file next to `lean/Verif.lean` and run with `lake env lean`, prints the same.

```lean
import Verif
import Lean
open Lean Elab Command
run_cmd do
  let env ← getEnv
  for (n, _) in env.constants.map₁.toList do
    if n.isInternal then continue
    let .str _ s := n | continue
    let cs := s.toList
    if cs.length > 4 && cs.head? == some 'C' && (cs.getD 1 'x').isDigit && (cs.getD 3 'x' == '_' || cs.getD 4 'x' == '_') then
      let ax ← liftCoreM (collectAxioms n)
      IO.println s!"AX {n} {ax.toList}"
```

| theorem | axioms |
|---|---|
| `Verif.Token.C01_lossless` | propext, Classical.choice, Quot.sound |
| `Verif.Token.C01_nul_drops` | propext |
| `Verif.Token.C01_prefix` | propext, Classical.choice, Quot.sound |
| `Verif.Token.C02_panic_iff` | propext, Classical.choice, Quot.sound |
| `Verif.Token.C02_terminates` | propext, Classical.choice, Quot.sound |
| `Verif.Token.C03_complete` | propext, Classical.choice, Quot.sound |
| `Verif.Token.C03_followed` | propext, Classical.choice, Quot.sound |
| `Verif.Token.C03_kinds` | propext, Classical.choice, Quot.sound |
| `Verif.Element.C04_injective` | propext |
| `Verif.Element.C04_roundtrip` | propext |
| `Verif.Element.C04_shape` | propext, Quot.sound |
| `Verif.Element.C05_followed` | propext, Classical.choice, Quot.sound |
| `Verif.Element.C05_one_token_iff` | propext, Classical.choice, Quot.sound |
| `Verif.Element.C06_injective` | propext, Classical.choice, Quot.sound |
| `Verif.Element.C06_text` | propext, Classical.choice, Quot.sound |
| `Verif.Element.C07_opaque` | propext, Classical.choice, Quot.sound |
| `Verif.Element.C07_roundtrip` | propext, Classical.choice, Quot.sound |
| `Verif.Element.C08_decode_iff` | propext, Classical.choice, Quot.sound |
| `Verif.Element.C08_panic_iff` | propext, Classical.choice, Quot.sound |
| `Verif.Element.C09_accepts` | propext, Classical.choice, Quot.sound |
| `Verif.Element.C09_country` | propext, Classical.choice, Quot.sound |
| `Verif.Element.C09_digit` | propext, Classical.choice, Quot.sound |
| `Verif.Element.C09_digit_roundtrip` | propext, Classical.choice, Quot.sound |
| `Verif.Element.C09_number` | propext, Classical.choice, Quot.sound |
| `Verif.Element.C10_date_iff` | propext, Classical.choice, Quot.sound |
| `Verif.Element.C10_date_roundtrip` | propext, Classical.choice, Quot.sound |
| `Verif.Element.C10_date_wide` | propext, Classical.choice, Quot.sound |
| `Verif.Element.C10_time_iff` | propext, Classical.choice, Quot.sound |
| `Verif.Element.C10_time_roundtrip` | propext, Classical.choice, Quot.sound |
| `Verif.Element.C11_bool` | propext |
| `Verif.Element.C11_bool_never_valid` | none |
| `Verif.Element.C11_code_iff` | propext, Classical.choice, Quot.sound |
| `Verif.Element.C11_code_member` | propext, Classical.choice, Quot.sound |
| `Verif.Element.C11_code_not_membership` | propext, Classical.choice, Quot.sound |
| `Verif.Element.C12_colon_cut` | propext |
| `Verif.Element.C12_extract_iff` | propext, Classical.choice, Quot.sound |
| `Verif.Element.C12_leaf` | propext, Classical.choice, Quot.sound |
| `Verif.Element.C12_plus_unreadable` | propext |
| `Verif.Segment.C13_binary_cut` | propext |
| `Verif.Segment.C13_bytes` | propext, Classical.choice, Quot.sound |
| `Verif.Segment.C13_extract_iff` | propext, Classical.choice, Quot.sound |
| `Verif.Segment.C13_plain` | propext, Classical.choice, Quot.sound |
| `Verif.Segment.C13_plus_cut` | propext |
| `Verif.Segment.C13_sound` | propext, Classical.choice, Quot.sound |
| `Verif.Message.C14_extract_iff` | propext, Classical.choice, Quot.sound |
| `Verif.Message.C14_prefix` | propext, Classical.choice, Quot.sound |
| `Verif.Message.C14_segments` | propext, Classical.choice, Quot.sound |
| `Verif.Message.C15_nul` | propext |
| `Verif.Message.C15_pin_colon` | propext |
| `Verif.Message.C15_pin_plus` | propext |
| `Verif.Message.C15_plain` | propext, Classical.choice, Quot.sound |
| `Verif.Message.C15_structure` | propext, Classical.choice, Quot.sound |
| `Verif.Message.C15_zero_comma` | propext |
| `Verif.Message.C16_agree` | propext, Quot.sound |
| `Verif.Message.C16_findSegment` | propext, Quot.sound |
| `Verif.Message.C16_findSegment_none` | propext, Quot.sound |
| `Verif.Message.C16_findSegments` | propext, Quot.sound |
| `Verif.Message.C16_longer_id` | none |
| `Verif.Message.C17_failing` | propext, Classical.choice, Quot.sound |
| `Verif.Message.C17_lookup` | propext |
| `Verif.Message.C17_repeat` | propext |
| `Verif.Message.C18_cached` | propext |
| `Verif.Message.C18_renumbered` | propext, Classical.choice, Quot.sound |
| `Verif.Message.C18_size` | propext, Classical.choice, Quot.sound |
| `Verif.Message.C19_consecutive` | propext, Classical.choice, Quot.sound |
| `Verif.Message.C19_idempotent` | propext |
| `Verif.Message.C19_panics` | propext |
| `Verif.Message.C19_positions` | propext, Classical.choice, Quot.sound |
| `Verif.Message.C19_transmitted` | propext, Quot.sound |
| `Verif.Message.C19_wire` | propext, Classical.choice, Quot.sound |
| `Verif.Message.C20_encrypt` | propext, Quot.sound |
| `Verif.Message.C20_encrypt_err` | propext, Quot.sound |
| `Verif.Message.C20_wire` | propext, Classical.choice, Quot.sound |
| `Verif.Segment.C21_accepts` | propext, Classical.choice, Quot.sound |
| `Verif.Segment.C21_bytes` | propext, Classical.choice, Quot.sound |
| `Verif.Segment.C21_roundtrip` | propext, Classical.choice, Quot.sound |
| `Verif.Segment.C21_setReference` | propext, Classical.choice, Quot.sound |
| `Verif.Domain.C22_classes` | propext, Classical.choice, Quot.sound |
| `Verif.Domain.C22_disjoint` | propext, Classical.choice, Quot.sound |
| `Verif.Domain.C22_none` | propext, Classical.choice, Quot.sound |
| `Verif.Message.C23_acknowledgements` | propext, Quot.sound |
| `Verif.Message.C23_version` | propext, Quot.sound |
| `Verif.Dialog.C24_gap` | propext, Classical.choice, Quot.sound |
| `Verif.Dialog.C24_numbers` | propext, Classical.choice, Quot.sound |
| `Verif.Dialog.C25_dialog_id` | propext, Classical.choice, Quot.sound |
| `Verif.Dialog.C26_closed` | propext, Classical.choice, Quot.sound |
| `Verif.Dialog.C26_exactly` | propext, Classical.choice, Quot.sound |
| `Verif.Dialog.C27_end_panics` | propext, Classical.choice, Quot.sound |
| `Verif.Dialog.C27_errors` | propext, Classical.choice, Quot.sound |
| `Verif.Dialog.C27_success` | propext, Classical.choice, Quot.sound |
| `Verif.Client.C28_client` | propext, Classical.choice, Quot.sound |
| `Verif.Dialog.C28_acquired` | propext, Classical.choice, Quot.sound |
| `Verif.Dialog.C28_failed` | propext, Classical.choice, Quot.sound |
| `Verif.Dialog.C28_invariant` | propext, Classical.choice, Quot.sound |
| `Verif.Dialog.C28_requested` | propext, Classical.choice, Quot.sound |
| `Verif.Dialog.C29_accounts` | propext, Classical.choice, Quot.sound |
| `Verif.Dialog.C29_duplicates` | propext, Classical.choice, Quot.sound |
| `Verif.Dialog.C29_per_answer` | propext, Quot.sound |
| `Verif.Client.C30_client` | propext, Classical.choice, Quot.sound |
| `Verif.Dialog.C30_invariant` | propext, Classical.choice, Quot.sound |
| `Verif.Dialog.C30_negotiated` | propext, Classical.choice, Quot.sound |
| `Verif.Dialog.C30_pin` | propext, Classical.choice, Quot.sound |
| `Verif.Dialog.C31_after_send` | propext, Classical.choice, Quot.sound |
| `Verif.Dialog.C31_first` | propext, Classical.choice, Quot.sound |
| `Verif.Dialog.C31_start` | propext, Classical.choice, Quot.sound |
| `Verif.Segment.C32_balance` | propext, Quot.sound |
| `Verif.Segment.C32_sepaBalance` | propext, Quot.sound |
| `Verif.Segment.C32_tan` | propext, Quot.sound |
| `Verif.Segment.C32_transactions` | propext, Quot.sound |
| `Verif.Segment.C32_wire` | propext, Classical.choice, Quot.sound |
| `Verif.Segment.C33_builder` | propext, Classical.choice, Quot.sound |
| `Verif.Segment.C33_never` | propext, Classical.choice, Quot.sound |
| `Verif.Segment.C34_not_offered` | propext, Quot.sound |
| `Verif.Segment.C34_swapped` | propext, Quot.sound |
| `Verif.Client.C35_bound` | propext, Quot.sound |
| `Verif.Client.C35_outcome` | propext, Classical.choice, Quot.sound |
| `Verif.Client.C35_pages` | propext, Classical.choice, Quot.sound |
| `Verif.Client.C35_sepa_never` | propext, Classical.choice, Quot.sound |
| `Verif.Client.C35_stopped_clock` | propext, Classical.choice, Quot.sound |
| `Verif.Client.C36_order` | propext, Quot.sound |
| `Verif.Client.C36_same_time` | propext |
| `Verif.Client.C36_sorted` | propext |
| `Verif.Client.C36_ties` | propext, Quot.sound |
| `Verif.Swift.C37_kinds` | propext, Classical.choice, Quot.sound |
| `Verif.Swift.C37_lossless` | propext, Classical.choice, Quot.sound |
| `Verif.Swift.C37_nul_drops` | propext |
| `Verif.Swift.C37_prefix` | propext, Classical.choice, Quot.sound |
| `Verif.Swift.C37_terminates` | propext, Classical.choice, Quot.sound |
| `Verif.Swift.C38_elements` | propext, Quot.sound |
| `Verif.Swift.C38_messages` | propext, Classical.choice, Quot.sound |
| `Verif.Swift.C38_messages_complete` | propext, Classical.choice, Quot.sound |
| `Verif.Swift.C38_multiline_lost` | propext, Classical.choice, Quot.sound |
| `Verif.Swift.C38_tags` | propext, Classical.choice, Quot.sound |
| `Verif.Swift.C38_tags_complete` | propext, Classical.choice, Quot.sound |
| `Verif.Swift.C38_unfinished` | propext |
| `Verif.Swift.C39_lines` | propext, Classical.choice, Quot.sound |
| `Verif.Swift.C39_orphan` | propext, Classical.choice, Quot.sound |
| `Verif.Swift.C39_second` | propext, Classical.choice, Quot.sound |
| `Verif.Swift.C39_transactions` | propext |
| `Verif.Swift.C39_unknown` | propext, Quot.sound |
| `Verif.Swift.C40_booked` | propext, Classical.choice, Quot.sound |
| `Verif.Swift.C40_unbooked` | propext, Classical.choice, Quot.sound |
| `Verif.Swift.C41_late` | propext, Classical.choice, Quot.sound |
| `Verif.Swift.C41_nearest` | propext, Classical.choice, Quot.sound |
| `Verif.Swift.C41_year` | propext, Classical.choice, Quot.sound |
| `Verif.Swift.C42_four` | propext, Classical.choice, Quot.sound |
| `Verif.Swift.C42_six` | propext, Classical.choice, Quot.sound |
| `Verif.Swift.C43_booked` | propext, Classical.choice, Quot.sound |
| `Verif.Swift.C43_references_total` | propext, Classical.choice, Quot.sound |
| `Verif.Swift.C43_reversal` | propext, Classical.choice, Quot.sound |
| `Verif.Swift.C43_unbooked` | propext, Classical.choice, Quot.sound |
| `Verif.Swift.C44_fields` | propext, Classical.choice, Quot.sound |
| `Verif.Swift.C44_out_of_order` | propext, Classical.choice, Quot.sound |
| `Verif.Swift.C44_short` | propext, Quot.sound |
| `Verif.Iban.C45_accepts` | propext, Classical.choice, Quot.sound |
| `Verif.Iban.C45_minus` | propext, Classical.choice, Quot.sound |
| `Verif.Iban.C45_new` | propext, Quot.sound |
| `Verif.Iban.C45_plus` | propext, Classical.choice, Quot.sound |
| `Verif.Iban.C45_valid` | propext, Quot.sound |
| `Verif.Iban.C46_alternate` | propext |
| `Verif.Iban.C46_from` | propext, Quot.sound |
| `Verif.Iban.C46_panic` | propext, Classical.choice, Quot.sound |
| `Verif.Iban.C46_roundtrip` | propext, Quot.sound |
| `Verif.Iban.C46_valid` | propext, Classical.choice, Quot.sound |
| `Verif.Iban.C47_check_digits` | propext, Quot.sound |
| `Verif.Iban.C47_substitution` | propext, Classical.choice, Quot.sound |
| `Verif.Iban.C47_transposition` | propext, Classical.choice, Quot.sound |
| `Verif.Iban.C47_undetected` | propext |
| `Verif.Iban.C48_accessors` | propext, Quot.sound |
| `Verif.Iban.C48_blanks` | propext, Classical.choice, Quot.sound |
| `Verif.Iban.C48_print` | propext, Classical.choice, Quot.sound |
| `Verif.Iban.C49_german` | propext, Classical.choice, Quot.sound |
| `Verif.Element.C50_bytes` | propext, Quot.sound |
| `Verif.Element.C50_text` | propext, Classical.choice, Quot.sound |
| `Verif.Transport.C51_error` | propext, Quot.sound |
| `Verif.Transport.C51_roundtrip` | propext, Quot.sound |
| `Verif.Transport.C51_shape` | propext, Classical.choice, Quot.sound |
| `Verif.Transport.C51_transparent` | propext, Quot.sound |
| `Verif.Transport.C52_encrypted` | propext, Classical.choice, Quot.sound |
| `Verif.Crypto.C53_block` | propext, Classical.choice, Quot.sound |
| `Verif.Crypto.C53_decides` | propext, Classical.choice, Quot.sound |
| `Verif.Crypto.C53_full` | propext, Classical.choice, Quot.sound |
| `Verif.Crypto.C53_garbled` | propext, Classical.choice, Quot.sound |
| `Verif.Crypto.C53_hangs` | propext, Classical.choice, Quot.sound |
| `Verif.Crypto.C53_padBits` | propext, Classical.choice, Quot.sound |
| `Verif.Crypto.C53_refused` | propext, Classical.choice, Quot.sound |
| `Verif.Crypto.C53_roundtrip` | propext, Classical.choice, Quot.sound |
| `Verif.Crypto.C53_short` | propext, Quot.sound |
| `Verif.Crypto.C53_sizes` | propext, Quot.sound |
| `Verif.Crypto.C53_tables` | propext |
| `Verif.Crypto.C53_unchecked` | propext, Quot.sound |
| `Verif.Crypto.C54_accepts` | propext, Classical.choice, Quot.sound |
| `Verif.Crypto.C54_blocks` | propext, Classical.choice, Quot.sound |
| `Verif.Crypto.C54_crt_formula` | propext, Classical.choice, Quot.sound |
| `Verif.Crypto.C54_crt_panics` | propext |
| `Verif.Crypto.C54_numbers` | propext, Classical.choice, Quot.sound |
| `Verif.Domain.C55_date_json` | propext, Classical.choice, Quot.sound |
| `Verif.Domain.C55_date_text` | propext, Classical.choice, Quot.sound |
| `Verif.Domain.C55_json_roundtrip` | propext, Classical.choice, Quot.sound |
| `Verif.Domain.C55_json_text` | propext, Classical.choice, Quot.sound |
| `Verif.Domain.C55_json_unquoted` | propext |
| `Verif.Domain.C55_json_unset` | propext, Classical.choice, Quot.sound |
| `Verif.Domain.C55_json_zero` | propext, Classical.choice, Quot.sound |
| `Verif.Domain.C55_query_iff` | propext, Classical.choice, Quot.sound |
| `Verif.Domain.C55_query_roundtrip` | propext, Classical.choice, Quot.sound |
| `Verif.Bankinfo.C56_found` | propext, Quot.sound |
| `Verif.Bankinfo.C56_missing` | propext, Quot.sound |
| `Verif.Bankinfo.C56_sound` | propext, Quot.sound |
| `Verif.Bankinfo.C56_version` | propext, Quot.sound |
| `Verif.Bankinfo.C56_version_missing` | propext, Quot.sound |
| `Verif.Bankinfo.C56_version_panic` | propext, Quot.sound |
| `Verif.Domain.C57_found` | propext, Quot.sound |
| `Verif.Domain.C57_missing` | propext, Quot.sound |
| `Verif.Bank.C58_international` | propext, Classical.choice, Quot.sound |
| `Verif.Bank.C58_national` | propext, Classical.choice, Quot.sound |
| `Verif.Bank.C58_no_sepa` | propext |
| `Verif.Bank.C58_seizable` | propext, Classical.choice, Quot.sound |
| `Verif.Bank.C58_wrong_year` | propext, Classical.choice, Quot.sound |
| `Verif.Element.C59_amount` | propext, Classical.choice, Quot.sound |
| `Verif.Element.C59_limit` | propext, Classical.choice, Quot.sound |
| `Verif.Element.C59_no_amount` | propext, Classical.choice, Quot.sound |
| `Verif.Element.C59_without` | propext, Classical.choice, Quot.sound |
| `Verif.Element.C60_reads` | propext, Classical.choice, Quot.sound |
| `Verif.Element.C60_roundtrip` | propext, Classical.choice, Quot.sound |
| `Verif.Element.C60_writes` | propext, Quot.sound |
| `Verif.Message.C61_accepts` | propext, Classical.choice, Quot.sound |
| `Verif.Message.C61_separator` | propext, Classical.choice, Quot.sound |
| `Verif.Message.C61_wire` | propext, Classical.choice, Quot.sound |
| `Verif.Message.C61_wire_separator` | propext, Classical.choice, Quot.sound |
| `Verif.Element.C62_amount` | propext, Classical.choice, Quot.sound |
| `Verif.Element.C62_float` | propext, Classical.choice, Quot.sound |
| `Verif.Element.C63_alnum_valid` | propext, Classical.choice, Quot.sound |
| `Verif.Element.C63_binary_never_valid` | propext, Classical.choice, Quot.sound |
| `Verif.Element.C63_code_never_valid` | propext |
| `Verif.Element.C63_number_valid` | propext, Classical.choice, Quot.sound |
| `Verif.Element.C63_time_valid` | propext, Classical.choice, Quot.sound |
| `Verif.Element.C64_dropped` | propext, Quot.sound |
| `Verif.Element.C64_pintan` | propext, Classical.choice, Quot.sound |
| `Verif.Element.C64_profile` | propext, Classical.choice, Quot.sound |
| `Verif.Element.C64_rejected` | propext, Classical.choice, Quot.sound |
| `Verif.Message.C65_extractor` | propext, Classical.choice, Quot.sound |
| `Verif.Message.C65_panic` | propext, Classical.choice, Quot.sound |
| `Verif.Message.C65_reads` | propext, Quot.sound |
| `Verif.Message.C66_sign` | propext, Classical.choice, Quot.sound |
| `Verif.Message.C67_supported` | propext, Classical.choice, Quot.sound |
| `Verif.Message.C68_position` | propext, Classical.choice, Quot.sound |
| `Verif.Client.C69_client` | propext, Classical.choice, Quot.sound |
| `Verif.Dialog.C69_history` | propext, Classical.choice, Quot.sound |
| `Verif.Segment.C69_unreachable` | propext, Classical.choice, Quot.sound |
| `Verif.Element.C70_reads` | propext, Classical.choice, Quot.sound |
| `Verif.Element.C70_roundtrip` | propext, Classical.choice, Quot.sound |
| `Verif.Element.C71_reads` | propext, Classical.choice, Quot.sound |
| `Verif.Segment.C72_balance` | propext, Classical.choice, Quot.sound |
| `Verif.Segment.C72_bank` | propext, Classical.choice, Quot.sound |
| `Verif.Segment.C72_transactions` | propext, Classical.choice, Quot.sound |
| `Verif.Segment.C73_default` | propext, Quot.sound |
| `Verif.Segment.C73_given` | propext |
| `Verif.Segment.C73_inverted` | propext, Classical.choice, Quot.sound |
| `Verif.Segment.C73_order` | propext, Classical.choice, Quot.sound |
| `Verif.Transport.C74_broken` | propext, Quot.sound |
| `Verif.Transport.C74_damaged` | propext, Quot.sound |
| `Verif.Transport.C74_lost_error` | propext |
| `Verif.Transport.C75_status` | propext, Quot.sound |
| `Verif.Dialog.C76_no_pin` | propext, Quot.sound |
| `Verif.Dialog.C76_unsecured` | propext, Classical.choice, Quot.sound |
| `Verif.Swift.C77_accepted` | propext, Quot.sound |
| `Verif.Swift.C77_crash` | propext, Quot.sound |
| `Verif.Swift.C77_no_account` | propext, Quot.sound |
| `Verif.Swift.C78_balances` | propext, Quot.sound |
| `Verif.Swift.C78_fields` | propext, Classical.choice, Quot.sound |
| `Verif.Client.C79_created` | propext, Quot.sound |
| `Verif.Client.C79_fresh` | propext |
| `Verif.Client.C79_unknown` | propext, Quot.sound |
| `Verif.Client.C80_pages` | propext, Classical.choice, Quot.sound |
| `Verif.Client.C81_balances` | propext, Classical.choice, Quot.sound |
| `Verif.Client.C81_no_balance` | propext, Classical.choice, Quot.sound |
| `Verif.Client.C81_status` | propext, Classical.choice, Quot.sound |
| `Verif.Client.C82_accounts` | propext, Classical.choice, Quot.sound |
| `Verif.Bank.C83_late` | propext, Classical.choice, Quot.sound |
| `Verif.Bank.C83_status` | propext, Classical.choice, Quot.sound |
| `Verif.Bank.C84_booked` | propext, Classical.choice, Quot.sound |
| `Verif.Bank.C84_unbooked_only` | propext, Classical.choice, Quot.sound |
| `Verif.Dialog.C85_contents` | propext, Classical.choice, Quot.sound |
| `Verif.Dialog.C85_knowledge` | propext, Classical.choice, Quot.sound |
| `Verif.Dialog.C86_bank_data` | propext, Classical.choice, Quot.sound |
| `Verif.Dialog.C86_unchanged` | propext, Classical.choice, Quot.sound |
| `Verif.Client.C87_again` | propext, Classical.choice, Quot.sound |
| `Verif.Client.C87_first` | propext, Classical.choice, Quot.sound |
| `Verif.Client.C87_only_needed` | propext, Classical.choice, Quot.sound |
| `Verif.Bank.C88_client_system` | propext, Classical.choice, Quot.sound |
| `Verif.Bank.C89_bank` | propext, Classical.choice, Quot.sound |
| `Verif.Bank.C90_pins` | propext, Classical.choice, Quot.sound |
| `Verif.Bank.C91_account` | propext, Classical.choice, Quot.sound |
| `Verif.Bank.C91_user` | propext, Classical.choice, Quot.sound |
| `Verif.Bank.C92_functions` | propext, Classical.choice, Quot.sound |
| `Verif.Bank.C92_names` | propext, Classical.choice, Quot.sound |
| `Verif.Bank.C93_communication` | propext, Classical.choice, Quot.sound |
| `Verif.Bank.C93_compression` | propext, Classical.choice, Quot.sound |
| `Verif.Bank.C93_message` | propext, Classical.choice, Quot.sound |
| `Verif.Bank.C93_security` | propext, Classical.choice, Quot.sound |
| `Verif.Bank.C93_signature` | propext, Classical.choice, Quot.sound |
| `Verif.Bank.C94_types` | propext, Quot.sound |
| `Verif.Bank.C94_unknown` | propext, Quot.sound |
| `Verif.Bank.C95_answer` | propext, Classical.choice, Quot.sound |
| `Verif.Bank.C95_content` | propext, Classical.choice, Quot.sound |
| `Verif.Bank.C95_learned` | propext, Classical.choice, Quot.sound |
| `Verif.Bank.C95_synchronised` | propext, Classical.choice, Quot.sound |
| `Verif.Dialog.C96_anonymous` | propext, Classical.choice, Quot.sound |
| `Verif.Dialog.C96_pin` | propext |
| `Verif.Dialog.C96_pin_damaged` | propext |
| `Verif.Dialog.C96_secured` | propext, Classical.choice, Quot.sound |
| `Verif.Bank.C97_history` | propext, Classical.choice, Quot.sound |
| `Verif.Bank.C97_jobs` | propext, Quot.sound |
| `Verif.Bank.C97_pin` | propext, Classical.choice, Quot.sound |
| `Verif.Transport.C97_answer` | propext |
| `Verif.Transport.C97_unreadable` | propext |
| `Verif.Client.C98_agree` | propext, Classical.choice, Quot.sound |
| `Verif.Client.C98_enough` | propext, Classical.choice, Quot.sound |
| `Verif.Client.C98_hidden` | propext, Classical.choice, Quot.sound |
| `Verif.Client.C98_no_panic` | propext, Classical.choice, Quot.sound |
| `Verif.Client.C98_url` | propext, Classical.choice, Quot.sound |
| `Verif.Dialog.C99_sent` | propext, Classical.choice, Quot.sound |
| `Verif.Message.C99_collides` | propext, Quot.sound |
| `Verif.Message.C99_form` | propext, Quot.sound |
| `Verif.Message.C99_not_unique` | propext, Quot.sound |
| `Verif.Message.C99_users` | propext, Classical.choice, Quot.sound |
| `Verif.Message.C99_window` | propext, Classical.choice, Quot.sound |
| `Verif.Swift.C100_determined` | propext |
| `Verif.Swift.C100_overdrawn` | propext, Classical.choice, Quot.sound |
| `Verif.Swift.C100_signed` | propext, Classical.choice, Quot.sound |
| `Verif.Swift.C100_statements` | propext, Classical.choice, Quot.sound |
| `Verif.Bank.C101_balances` | propext, Classical.choice, Quot.sound |
| `Verif.Bank.C101_sepa_balances` | propext, Classical.choice, Quot.sound |
| `Verif.Bank.C101_transactions` | propext, Classical.choice, Quot.sound |
| `Verif.Bank.C102_balances` | propext, Classical.choice, Quot.sound |
| `Verif.Bank.C102_sepa_balances` | propext, Classical.choice, Quot.sound |
| `Verif.Bank.C102_transactions` | propext, Classical.choice, Quot.sound |
| `Verif.Bank.C103_accounts` | propext, Classical.choice, Quot.sound |
| `Verif.Bank.C103_balances` | propext, Classical.choice, Quot.sound |
| `Verif.Bank.C103_new` | propext, Quot.sound |
| `Verif.Bank.C103_sepa_balances` | propext, Classical.choice, Quot.sound |
| `Verif.Bank.C103_transactions` | propext, Classical.choice, Quot.sound |
| `Verif.Keys.C104_confirmation` | propext, Quot.sound |
| `Verif.Keys.C104_exponent` | propext, Classical.choice, Quot.sound |
| `Verif.Keys.C104_keys` | propext, Classical.choice, Quot.sound |
| `Verif.Keys.C104_reason` | propext, Quot.sound |
| `Verif.Keys.C104_reason_bytes` | propext, Classical.choice, Quot.sound |
| `Verif.Keys.C104_received` | propext, Classical.choice, Quot.sound |
| `Verif.Keys.C104_renewal` | propext, Quot.sound |
| `Verif.Keys.C104_renewal_bytes` | propext, Classical.choice, Quot.sound |
| `Verif.Keys.C104_request_bytes` | propext, Classical.choice, Quot.sound |
| `Verif.Keys.C104_transmission` | propext, Quot.sound |
| `Verif.Rdh.C104_dialog` | propext, Classical.choice, Quot.sound |
| `Verif.Rdh.C104_first` | propext, Classical.choice, Quot.sound |
| `Verif.Bank.C105_unread` | propext, Classical.choice, Quot.sound |
| `Verif.Client.C105_access` | propext, Classical.choice, Quot.sound |
| `Verif.Client.C105_bytes` | propext, Classical.choice, Quot.sound |
| `Verif.Client.C105_information` | propext, Classical.choice, Quot.sound |
| `Verif.Domain.C106_refused` | propext, Classical.choice, Quot.sound |
| `Verif.Domain.C106_status` | propext |
| `Verif.Domain.C106_told` | propext, Quot.sound |
| `Verif.Domain.C106_unambiguous` | propext, Classical.choice, Quot.sound |
| `Verif.Bankinfo.C107_any` | propext, Classical.choice, Quot.sound |
| `Verif.Bankinfo.C107_files` | propext, Quot.sound |
| `Verif.Bankinfo.C107_found` | propext, Quot.sound |
| `Verif.Bankinfo.C107_parse` | propext, Quot.sound |
| `Verif.Transport.C108_echo` | propext, Classical.choice, Quot.sound |
| `Verif.Transport.C108_refused` | propext, Classical.choice, Quot.sound |
| `Verif.Transport.C108_sent` | propext, Classical.choice, Quot.sound |
| `Verif.Transport.C108_unchanged` | propext, Classical.choice, Quot.sound |
| `Verif.Domain.Printed.C109_balance` | propext, Classical.choice, Quot.sound |
| `Verif.Domain.Printed.C109_balances` | propext, Classical.choice, Quot.sound |
| `Verif.Domain.Printed.C109_glued` | propext, Classical.choice, Quot.sound |
| `Verif.Domain.Printed.C109_information` | propext, Classical.choice, Quot.sound |
| `Verif.Domain.Printed.C109_informations` | propext, Classical.choice, Quot.sound |
| `Verif.Domain.Printed.C109_joined` | propext, Classical.choice, Quot.sound |
| `Verif.Domain.Printed.C109_sepa` | propext, Classical.choice, Quot.sound |
| `Verif.Domain.Printed.C109_transaction` | propext, Classical.choice, Quot.sound |
| `Verif.Domain.Printed.C109_transactions` | propext, Classical.choice, Quot.sound |
| `Verif.Cli.C110_accounts` | propext, Classical.choice, Quot.sound |
| `Verif.Cli.C110_asks_balances` | propext, Classical.choice, Quot.sound |
| `Verif.Cli.C110_asks_sepa` | propext, Classical.choice, Quot.sound |
| `Verif.Cli.C110_asks_transactions` | propext, Classical.choice, Quot.sound |
| `Verif.Cli.C110_balances` | propext, Classical.choice, Quot.sound |
| `Verif.Cli.C110_missing` | propext, Quot.sound |
| `Verif.Cli.C110_sepa_balances` | propext, Classical.choice, Quot.sound |
| `Verif.Cli.C110_transactions` | propext, Classical.choice, Quot.sound |
| `Verif.Cli.C110_transactions_sepa` | propext, Classical.choice, Quot.sound |
| `Verif.Cli.C110_unknown` | propext, Quot.sound |
| `Verif.Bank.C111_accounts` | propext, Classical.choice, Quot.sound |
| `Verif.Bank.C111_balances` | propext, Classical.choice, Quot.sound |
| `Verif.Bank.C111_sepa_balances` | propext, Classical.choice, Quot.sound |
| `Verif.Bank.C111_stuck_balances` | propext, Quot.sound |
| `Verif.Bank.C111_stuck_transactions` | propext, Quot.sound |
| `Verif.Bank.C111_transactions` | propext, Classical.choice, Quot.sound |
| `Verif.Bank.C111_writes` | propext, Classical.choice, Quot.sound |
| `Verif.Client.C112_counted` | propext, Quot.sound |
| `Verif.Client.C112_identification` | propext, Classical.choice, Quot.sound |
| `Verif.Client.C112_own_invalid` | propext, Quot.sound |
| `Verif.Element.C112_acknowledgement` | propext, Classical.choice, Quot.sound |
| `Verif.Element.C112_bytes_not_characters` | propext |
| `Verif.Element.C112_header` | propext, Classical.choice, Quot.sound |
| `Verif.Element.C112_length` | propext |
| `Verif.Element.C112_new_acknowledgement` | propext, Classical.choice, Quot.sound |
| `Verif.Element.C112_new_header` | propext, Classical.choice, Quot.sound |
| `Verif.Element.C112_read_header` | propext, Classical.choice, Quot.sound |
| `Verif.Element.C112_referencing` | propext, Classical.choice, Quot.sound |
| `Verif.Element.C112_single_length` | propext, Classical.choice, Quot.sound |
| `Verif.Element.C112_text_bound` | propext, Classical.choice, Quot.sound |
| `Verif.Element.C112_usual_acknowledgement` | propext, Classical.choice, Quot.sound |
| `Verif.Element.C112_valid` | propext, Classical.choice, Quot.sound |
| `Verif.Element.C113_elements` | propext, Classical.choice, Quot.sound |
| `Verif.Element.C113_shorter` | propext, Classical.choice, Quot.sound |
| `Verif.Message.C113_find` | propext, Quot.sound |
| `Verif.Message.C113_find_all` | propext, Quot.sound |
| `Verif.Message.C113_marshaled` | propext, Classical.choice, Quot.sound |
| `Verif.Message.C113_marshaled_all` | propext, Classical.choice, Quot.sound |
| `Verif.Segment.C113_own` | propext, Classical.choice, Quot.sound |
| `Verif.Segment.C113_segment_shorter` | propext, Classical.choice, Quot.sound |
| `Verif.Segment.C113_segments` | propext, Classical.choice, Quot.sound |
| `Verif.Keys.C114_encryption` | propext, Classical.choice, Quot.sound |
| `Verif.Keys.C114_exponent` | propext, Classical.choice, Quot.sound |
| `Verif.Keys.C114_reference` | propext, Classical.choice, Quot.sound |
| `Verif.Keys.C114_signature` | propext, Classical.choice, Quot.sound |
| `Verif.Keys.C114_signed` | propext, Classical.choice, Quot.sound |
| `Verif.Keys.C114_uses` | propext, Classical.choice, Quot.sound |
| `Verif.Message.C115_first` | propext, Classical.choice, Quot.sound |
| `Verif.Message.C115_longer_id` | propext |
| `Verif.Message.C115_repeated` | propext, Classical.choice, Quot.sound |
| `Verif.Message.C115_segment` | propext, Classical.choice, Quot.sound |
| `Verif.Message.C115_times` | propext, Quot.sound |
| `Verif.Bank.C116_any_id` | propext |
| `Verif.Bank.C116_nothing` | propext |
| `Verif.Bank.C116_versions` | propext, Quot.sound |
| `Verif.Logger.C117_clients` | propext |
| `Verif.Logger.C117_info` | propext |
| `Verif.Logger.C117_information` | propext |
| `Verif.Logger.C117_inside` | propext |
| `Verif.Logger.C117_lost` | propext |
| `Verif.Logger.C117_outside` | propext |
| `Verif.Logger.C117_panic` | propext |
| `Verif.Element.C118_binary` | propext, Classical.choice, Quot.sound |
| `Verif.Element.C118_bool` | propext |
| `Verif.Element.C118_date` | propext, Classical.choice, Quot.sound |
| `Verif.Element.C118_float` | propext, Classical.choice, Quot.sound |
| `Verif.Element.C118_number` | propext, Classical.choice, Quot.sound |
| `Verif.Element.C118_text` | propext, Classical.choice, Quot.sound |
| `Verif.Element.C118_time` | propext, Classical.choice, Quot.sound |
| `Verif.Dialog.C119_same` | propext, Classical.choice, Quot.sound |
| `Verif.Generator.C120_found` | propext, Classical.choice, Quot.sound |
| `Verif.Generator.C120_refused` | propext, Classical.choice, Quot.sound |
| `Verif.Generator.C120_roundtrip` | propext, Classical.choice, Quot.sound |
| `Verif.Generator.C120_same_line` | propext, Classical.choice, Quot.sound |
| `Verif.Generator.C120_silent` | propext |
| `Verif.Generator.C120_sync` | propext, Quot.sound |
| `Verif.Generator.C120_unsupported` | propext, Classical.choice, Quot.sound |
| `Verif.Generator.C120_versions` | propext, Classical.choice, Quot.sound |
| `Verif.Bank.C121_allowed` | propext, Classical.choice, Quot.sound |
| `Verif.Bank.C121_languages` | propext, Classical.choice, Quot.sound |
| `Verif.Bank.C121_pin_jobs` | propext, Classical.choice, Quot.sound |
| `Verif.Bank.C121_pin_jobs_roundtrip` | propext, Classical.choice, Quot.sound |
| `Verif.Bank.C121_versions` | propext, Classical.choice, Quot.sound |
| `Verif.Swift.C122_account` | propext, Classical.choice, Quot.sound |
| `Verif.Swift.C122_float` | propext, Quot.sound |
| `Verif.Swift.C122_head` | propext, Classical.choice, Quot.sound |
| `Verif.Swift.C122_last` | propext, Quot.sound |
| `Verif.Swift.C122_number` | propext, Classical.choice, Quot.sound |
| `Verif.Swift.C122_one_slash` | propext, Classical.choice, Quot.sound |
| `Verif.Swift.C122_text_and_number` | propext, Classical.choice, Quot.sound |
| `Verif.Bank.C123_answer` | propext, Classical.choice, Quot.sound |
| `Verif.Dialog.C123_call` | propext, Classical.choice, Quot.sound |
| `Verif.Dialog.C123_history` | propext, Classical.choice, Quot.sound |
| `Verif.Segment.C124_balance` | propext, Classical.choice, Quot.sound |
| `Verif.Segment.C124_balance_same` | propext, Classical.choice, Quot.sound |
| `Verif.Segment.C124_cut` | propext |
| `Verif.Segment.C124_information` | propext, Classical.choice, Quot.sound |
| `Verif.Segment.C124_message` | propext, Classical.choice, Quot.sound |
| `Verif.Segment.C124_segment` | propext, Classical.choice, Quot.sound |
| `Verif.Segment.C124_status` | propext, Classical.choice, Quot.sound |
| `Verif.Segment.C124_tan` | propext, Classical.choice, Quot.sound |
| `Verif.Segment.C124_transactions` | propext, Classical.choice, Quot.sound |
| `Verif.Dialog.C125_exchange` | propext, Classical.choice, Quot.sound |
| `Verif.Dialog.C125_exchangePlain` | propext, Classical.choice, Quot.sound |
| `Verif.Dialog.C125_no_bank` | propext, Classical.choice, Quot.sound |
| `Verif.Dialog.C125_same` | propext, Classical.choice, Quot.sound |
| `Verif.Dialog.C125_secured` | propext, Classical.choice, Quot.sound |
| `Verif.Dialog.C125_unsecured` | propext, Classical.choice, Quot.sound |
| `Verif.Client.C126_accounts` | propext, Classical.choice, Quot.sound |
| `Verif.Client.C126_balances` | propext, Classical.choice, Quot.sound |
| `Verif.Client.C126_client` | propext, Classical.choice, Quot.sound |
| `Verif.Client.C126_new` | propext |
| `Verif.Client.C126_sepa_balances` | propext, Classical.choice, Quot.sound |
| `Verif.Client.C126_status` | propext, Classical.choice, Quot.sound |
| `Verif.Client.C126_transactions` | propext, Classical.choice, Quot.sound |
| `Verif.Dialog.C126_anonymous` | propext, Classical.choice, Quot.sound |
| `Verif.Dialog.C126_secured` | propext, Classical.choice, Quot.sound |
| `Verif.Bank.C127_balance` | propext, Quot.sound |
| `Verif.Bank.C127_line` | propext, Quot.sound |
| `Verif.Bank.C127_sepa_balance` | propext, Quot.sound |
| `Verif.Bank.C127_statement` | propext, Quot.sound |
| `Verif.Client.C127_access` | propext, Classical.choice, Quot.sound |
| `Verif.Client.C127_accounts` | propext, Classical.choice, Quot.sound |
| `Verif.Client.C127_balances` | propext, Classical.choice, Quot.sound |
| `Verif.Client.C127_history` | propext, Classical.choice, Quot.sound |
| `Verif.Client.C127_information` | propext, Classical.choice, Quot.sound |
| `Verif.Client.C127_sepa_balances` | propext, Classical.choice, Quot.sound |
| `Verif.Client.C127_status` | propext, Classical.choice, Quot.sound |
| `Verif.Client.C127_transactions` | propext, Classical.choice, Quot.sound |
| `Verif.Generator.C128_error` | propext, Classical.choice, Quot.sound |
| `Verif.Generator.C128_piece` | propext, Classical.choice, Quot.sound |
| `Verif.Generator.C128_roundtrip` | propext, Classical.choice, Quot.sound |
| `Verif.Generator.C128_set` | propext, Classical.choice, Quot.sound |
| `Verif.Generator.C128_string` | propext, Classical.choice, Quot.sound |
| `Verif.Generator.C129_index` | propext, Quot.sound |
| `Verif.Generator.C129_readers` | propext, Quot.sound |
| `Verif.Generator.C129_types` | propext |
| `Verif.Bank.C130_add` | propext |
| `Verif.Bank.C130_add_fails` | propext |
| `Verif.Bank.C130_order` | propext, Quot.sound |
| `Verif.Bank.C130_package` | propext, Classical.choice, Quot.sound |
| `Verif.Bank.C130_twice` | propext, Quot.sound |
| `Verif.Domain.Today.C131_calendar` | propext, Classical.choice, Quot.sound |
| `Verif.Domain.Today.C131_date` | propext, Classical.choice, Quot.sound |
| `Verif.Domain.Today.C131_frame` | propext, Classical.choice, Quot.sound |
| `Verif.Domain.Today.C131_location` | none |
| `Verif.Domain.Today.C131_today` | propext, Classical.choice, Quot.sound |
| `Verif.Domain.Today.C131_utc` | propext, Classical.choice, Quot.sound |
| `Verif.Bankinfo.GoText.C132_file` | propext, Classical.choice, Quot.sound |
| `Verif.Bankinfo.GoText.C132_institute` | propext, Quot.sound |
| `Verif.Bankinfo.GoText.C132_program` | propext, Classical.choice, Quot.sound |
| `Verif.Generator.C133_complete` | propext, Quot.sound |
| `Verif.Generator.C133_versioned` | propext, Classical.choice, Quot.sound |
| `Verif.Dialog.C134_history` | propext, Classical.choice, Quot.sound |
| `Verif.Dialog.C134_results` | propext, Classical.choice, Quot.sound |
| `Verif.Generator.Command.C135_destroyed` | propext |
| `Verif.Generator.Command.C135_failure` | propext, Quot.sound |
| `Verif.Generator.Command.C135_generate` | propext, Classical.choice, Quot.sound |
| `Verif.Generator.Command.C135_names` | propext, Classical.choice, Quot.sound |
| `Verif.Generator.Command.C135_order` | propext, Classical.choice, Quot.sound |
| `Verif.Generator.Command.C135_others` | propext, Quot.sound |
| `Verif.Generator.Command.C135_segment` | propext, Quot.sound |
| `Verif.Generator.Command.C135_success` | propext, Quot.sound |
| `Verif.Dialog.C136_any` | propext, Classical.choice, Quot.sound |
| `Verif.Dialog.C136_history` | propext, Quot.sound |
| `Verif.Dialog.C136_results` | propext, Quot.sound |
| `Verif.Dialog.C136_torn` | propext, Quot.sound |
| `Verif.Dialog.C137_history` | propext, Classical.choice, Quot.sound |
| `Verif.Dialog.C137_lengths` | propext, Classical.choice, Quot.sound |
| `Verif.Dialog.C137_results` | propext, Classical.choice, Quot.sound |
| `Verif.Dialog.C138_anonymous` | propext, Quot.sound |
| `Verif.Dialog.C138_leftover` | propext, Quot.sound |
| `Verif.Dialog.C138_send` | propext, Quot.sound |
| `Verif.Dialog.C138_user` | propext, Quot.sound |
