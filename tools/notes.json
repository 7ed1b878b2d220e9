{
 "C01": {
  "note": "The full claim is false of the code (C01_faithful_replay_fails, C01_unread_retry_duplicates_first_chunk). Proved for the original and for every clone first polled after at least one byte was read by anyone; missing: clones first polled before that."
 },
 "C02": {
  "note": "Bound, rejection, cap detection and 'a fresh clone of a capped body only errors' are proved in full; 'the active clone is undisturbed' only for clones covered by C01 (C02_active_clone_can_be_cut_off is the counterexample otherwise)."
 },
 "C52": {
  "note": "The full contract is false for buffers containing an empty chunk (C52_chunk_contract_fails, C52_copy_never_terminates); proved for buffers without empty chunks."
 },
 "C53": {
  "status": "partial",
  "note": "End-of-stream soundness proved under the assumption that the inner body's own report is sound; the size report of a clone being read is not what remains (C53_size_hint_overestimates)."
 },
 "C03": {
  "note": "The readiness error of the service replaces the last response (C03_ready_failure_discards_response); everything else as stated."
 },
 "C05": {
  "note": "Bounds, jitter, growth and pacing are proved; that the base delay reaches the maximum holds exactly when max <= (2^32-1)*min (C05_base_reaches_max); C05_max_may_be_unreachable is the counterexample otherwise."
 },
 "C54": {
  "note": "Ownership of the buffer is proved in full; faithfulness is proved when each failed send was read (C01's condition). C54_failed_unread_send_duplicates_data shows the full claim is false of the code."
 }
}