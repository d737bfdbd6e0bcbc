{
 "claims": [
  {
   "property": "C01",
   "status": "partial",
   "theorems": [
    "Verif.fixed_fifo_partial",
    "Verif.fixed_fifo_of_pos",
    "Verif.fixed_capacity_zero_panics",
    "Verif.fixed_fifo_iff",
    "Verif.fixed_zero_panics_iff"
   ],
   "note": "Full statement proved for every capacity >= 1; false for capacity 0 (consider_dequeued(0) panics with a remainder by zero, proved), where it holds for sequences without consider_dequeued. fixed_fifo_iff: it holds exactly for the other capacities; fixed_zero_panics_iff: exactly that call panics."
  },
  {
   "property": "C02",
   "status": "partial",
   "theorems": [
    "Verif.static_fifo_partial",
    "Verif.static_fifo_of_pos",
    "Verif.static_capacity_zero_panics",
    "Verif.static_fifo_iff"
   ],
   "note": "As C01, for every N."
  },
  {
   "property": "C03",
   "status": "proved",
   "theorems": [
    "Verif.fixed_exposes_well",
    "Verif.static_exposes_well"
   ],
   "note": "All reachable states, both queues."
  },
  {
   "property": "C04",
   "status": "proved",
   "theorems": [
    "Verif.fixed_debug",
    "Verif.static_debug",
    "Verif.fixed_dequeue_order",
    "Verif.static_dequeue_order"
   ],
   "note": "The list of debug entries; formatting of the individual items is not modelled."
  },
  {
   "property": "C05",
   "status": "proved",
   "theorems": [
    "Verif.fixed_filler_unobservable",
    "Verif.fixed_filler_unobservable_zero",
    "Verif.static_filler_unobservable",
    "Verif.static_filler_unobservable_zero"
   ],
   "note": "For capacity 0 both queues are the same value, so the statement is trivial there."
  },
  {
   "property": "C06",
   "status": "proved",
   "theorems": [
    "Verif.consume_full_slice_exact",
    "Verif.consume_full_slice_spec"
   ],
   "note": ""
  },
  {
   "property": "C07",
   "status": "proved",
   "theorems": [
    "Verif.bulk_consume_full_slice_spec",
    "Verif.bulk_consume_full_slice_count"
   ],
   "note": ""
  },
  {
   "property": "C08",
   "status": "proved",
   "theorems": [
    "Verif.overwrite_full_slice_exact",
    "Verif.overwrite_full_slice_spec",
    "Verif.produce_item_exact"
   ],
   "note": ""
  },
  {
   "property": "C09",
   "status": "proved",
   "theorems": [
    "Verif.bulk_overwrite_full_slice_spec"
   ],
   "note": ""
  },
  {
   "property": "C10",
   "status": "proved",
   "theorems": [
    "Verif.pipe_ok_iff",
    "Verif.pipe_producer_error_iff",
    "Verif.pipe_consumer_error_iff",
    "Verif.pipe_never_returns",
    "Verif.pipe_spec",
    "Verif.pipe_producer_error_open",
    "Verif.pipe_endless"
   ],
   "note": ""
  },
  {
   "property": "C11",
   "status": "proved",
   "theorems": [
    "Verif.bulk_pipe_spec",
    "Verif.bulk_pipe_endless",
    "Verif.bulk_pipe_eq_pipe"
   ],
   "note": ""
  },
  {
   "property": "C12",
   "status": "proved",
   "theorems": [
    "Verif.pipe_at_most_ok_iff",
    "Verif.pipe_at_most_producer_error_iff",
    "Verif.pipe_at_most_consumer_error_iff",
    "Verif.pipe_at_most_terminates",
    "Verif.pipe_at_most_spec"
   ],
   "note": ""
  },
  {
   "property": "C13",
   "status": "proved",
   "theorems": [
    "Verif.bulk_pipe_at_most_spec",
    "Verif.bulk_pipe_at_most_eq"
   ],
   "note": ""
  },
  {
   "property": "C14",
   "status": "proved",
   "theorems": [
    "Verif.pipe_at_most_compose",
    "Verif.pipe_at_most_then_pipe",
    "Verif.bulk_pipe_at_most_compose",
    "Verif.bulk_pipe_at_most_then_bulk_pipe"
   ],
   "note": ""
  },
  {
   "property": "C15",
   "status": "proved",
   "theorems": [
    "Verif.producer_history",
    "Verif.producer_history_safe",
    "Verif.consumer_history",
    "Verif.consumer_history_safe",
    "Verif.deferring_consumer_history",
    "Verif.deferring_consumer_errors",
    "Verif.deferring_consumer_flush",
    "Verif.deferring_consumer_history_safe",
    "Verif.delaying_consumer_history",
    "Verif.delaying_consumer_flush",
    "Verif.delaying_consumer_history_safe"
   ],
   "note": "Histories are arbitrary finite sequences of allowed calls; buffers passed to bulk methods are required to be non-empty (see C47)."
  },
  {
   "property": "C16",
   "status": "proved",
   "theorems": [
    "Verif.from_slice_plays",
    "Verif.from_slice_invariant_plays",
    "Verif.from_slice_noop_plays",
    "Verif.from_slice_accessors",
    "Verif.from_slice_invariant_accessors",
    "Verif.from_boxed_slice_plays",
    "Verif.from_boxed_slice_invariant_plays",
    "Verif.from_boxed_slice_noop_plays",
    "Verif.from_boxed_slice_accessors",
    "Verif.from_boxed_slice_invariant_accessors"
   ],
   "note": ""
  },
  {
   "property": "C17",
   "status": "proved",
   "theorems": [
    "Verif.into_vec_collects",
    "Verif.into_vec_new_collects",
    "Verif.into_vec_invariant_collects",
    "Verif.into_vec_noop_collects",
    "Verif.into_vec_contents",
    "Verif.into_vec_invariant_contents",
    "Verif.into_vec_exposes"
   ],
   "note": ""
  },
  {
   "property": "C18",
   "status": "proved",
   "theorems": [
    "Verif.empty_plays",
    "Verif.empty_invariant_plays",
    "Verif.empty_noop_plays",
    "Verif.empty_histories",
    "Verif.empty_ends"
   ],
   "note": ""
  },
  {
   "property": "C19",
   "status": "proved",
   "theorems": [
    "Verif.pipe_slice_into_vec",
    "Verif.bulk_pipe_slice_into_vec",
    "Verif.pipe_at_most_slice_into_vec",
    "Verif.bulk_pipe_at_most_slice_into_vec",
    "Verif.bulk_pipe_slice_into_vec_invariant"
   ],
   "note": ""
  },
  {
   "property": "C25",
   "status": "partial",
   "theorems": [
    "Verif.producer_invariant_exact",
    "Verif.producer_invariant_plays",
    "Verif.producer_invariant_noop_plays",
    "Verif.producer_invariant_transparent",
    "Verif.producer_invariant_histories",
    "Verif.producer_end_deactivates",
    "Verif.producer_inactive_panics",
    "Verif.producer_invariant_panics_after_end",
    "Verif.producer_invariant_panics_beyond_exposed",
    "Verif.producer_invariant_panics_before_exposed",
    "Verif.producer_invariant_misses_consider_error",
    "Verif.producer_invariant_misses_stale_exposure"
   ],
   "note": "What exactly the wrapper detects is proved for all clients, correct or not (producer_invariant_exact). Transparency proved for arbitrary producers; panics after the end proved for producers whose consider_produced does not fail. False (proved by counterexample): errors of consider_produced do not deactivate the wrapper; the exposed-items counter is not reset by produce/slurp."
  },
  {
   "property": "C26",
   "status": "partial",
   "theorems": [
    "Verif.consumer_invariant_exact",
    "Verif.consumer_invariant_collects",
    "Verif.consumer_invariant_noop_collects",
    "Verif.consumer_invariant_defers",
    "Verif.consumer_invariant_noop_defers",
    "Verif.consumer_invariant_transparent",
    "Verif.consumer_invariant_histories",
    "Verif.consumer_invariant_panics_after_end_partial",
    "Verif.consumer_invariant_panics_after_end",
    "Verif.consumer_invariant_panics_beyond_exposed",
    "Verif.consumer_invariant_panics_before_exposed",
    "Verif.consumer_invariant_misses_consume_slots_error",
    "Verif.consumer_invariant_misses_stale_exposure"
   ],
   "note": "What exactly the wrapper detects is proved for all clients, correct or not (consumer_invariant_exact). Transparency proved for arbitrary consumers. False (proved by counterexample): errors of consume_slots do not deactivate the wrapper; the exposed-slots counter is not reset by consume/flush."
  },
  {
   "property": "C20",
   "status": "partial",
   "theorems": [
    "Verif.limit_plays",
    "Verif.limit_bulk_plays_partial",
    "Verif.limit_bulk_plays_without_slurp",
    "Verif.limit_emits",
    "Verif.limit_histories",
    "Verif.limit_lawful_histories",
    "Verif.limit_slurp_leaks_error",
    "Verif.limit_bulk_plays_iff",
    "Verif.script_producer_plays"
   ],
   "note": "Holds for every mix of produce, expose_items/consider_produced and bulk_produce; at most n items are taken, for arbitrary producers. False for slurp (proved by counterexample): slurp is forwarded at the limit and can report an error of the wrapped producer instead of the end. limit_bulk_plays_iff: the full statement including slurp holds for a sequence and limit exactly if the limit does not cut off an error that follows directly."
  },
  {
   "property": "C21",
   "status": "proved",
   "theorems": [
    "Verif.limit_collects",
    "Verif.limit_delays",
    "Verif.limit_consumes",
    "Verif.limit_reached",
    "Verif.limit_consumer_histories"
   ],
   "note": ""
  },
  {
   "property": "C22",
   "status": "proved",
   "theorems": [
    "Verif.map_item_plays",
    "Verif.map_item_plays_unbuffered",
    "Verif.map_item_script",
    "Verif.results_stateless",
    "Verif.map_item_emits",
    "Verif.map_item_end",
    "Verif.map_item_collects",
    "Verif.map_item_collects_unbuffered",
    "Verif.map_item_delays",
    "Verif.map_item_consumes"
   ],
   "note": ""
  },
  {
   "property": "C23",
   "status": "proved",
   "theorems": [
    "Verif.map_final_plays",
    "Verif.map_final_collects",
    "Verif.map_final_delays",
    "Verif.map_final_script"
   ],
   "note": ""
  },
  {
   "property": "C24",
   "status": "partial",
   "theorems": [
    "Verif.map_error_first_call_partial",
    "Verif.map_error_plays_partial",
    "Verif.map_error_panics",
    "Verif.map_error_never_plays",
    "Verif.map_error_bulk_produce_panics",
    "Verif.map_error_consumer_first_call_partial",
    "Verif.map_error_consumer_panics",
    "Verif.map_error_consumer_second_panics",
    "Verif.map_error_bulk_consume_panics",
    "Verif.map_error_plays_iff",
    "Verif.map_error_buf_plays_iff",
    "Verif.map_error_bulk_plays_iff",
    "Verif.map_error_collects_iff",
    "Verif.map_error_buf_collects_iff",
    "Verif.map_error_bulk_collects_iff"
   ],
   "note": "False (proved): the function is taken on the first call even if there is no error, so the second call of any method panics. The partial theorems cover the first call; the _iff theorems say around exactly which producers and consumers it does work (those that can only end)."
  },
  {
   "property": "C48",
   "status": "partial",
   "theorems": [
    "Verif.producer_stack_plays_partial",
    "Verif.producer_stack_plays_without_slurp",
    "Verif.producer_stack_plays_itemwise",
    "Verif.consumer_stack_collects",
    "Verif.pipe_stacks",
    "Verif.bulk_pipe_stacks",
    "Verif.producer_stack_plays_but_slurp",
    "Verif.producer_stack_plays_iff"
   ],
   "note": "Everything proved for all nestings, except that producer stacks with slurp need that no Limit cuts off the sequence directly before an error (C20 is false there). producer_stack_plays_but_slurp: for all stacks the only deviation is that slurp may fail after the last item. producer_stack_plays_iff: exactly the stacks and sequences without any deviation."
  },
  {
   "property": "C27",
   "status": "partial",
   "theorems": [
    "Verif.producer_scrambler_plays_without_slurp",
    "Verif.producer_scrambler_respects_without_slurp",
    "Verif.producer_scrambler_plays_partial",
    "Verif.producer_scrambler_plays_partial_of_slurp",
    "Verif.producer_scrambler_invariant_plays_partial",
    "Verif.producer_scrambler_slurp_panics",
    "Verif.producer_scrambler_not_lawful",
    "Verif.producer_scrambler_capacity_zero",
    "Verif.producer_scrambler_plays_iff"
   ],
   "note": "Full for every mix of produce, expose_items/consider_produced and bulk_produce. False for slurp (proved by counterexample): the scrambler calls slurp of its producer after that has ended. With slurp proved for producers that tolerate such calls. producer_scrambler_plays_iff: for all lawful producers of a sequence it holds, including slurp, exactly if the sequence has no end or consists of an error."
  },
  {
   "property": "C28",
   "status": "partial",
   "theorems": [
    "Verif.consumer_scrambler_defers",
    "Verif.consumer_scrambler_collects",
    "Verif.consumer_scrambler_respects",
    "Verif.consumer_scrambler_invariant_defers",
    "Verif.consumer_scrambler_history",
    "Verif.consumer_scrambler_exact",
    "Verif.consumer_scrambler_consume_exact",
    "Verif.consumer_scrambler_debug_defers_partial",
    "Verif.consumer_scrambler_debug_consume_panics",
    "Verif.consumer_scrambler_debug_exact",
    "Verif.consumer_scrambler_capacity_zero"
   ],
   "note": "Fully proved for release builds. In debug builds consume panics once the buffer is full because of an inverted debug_assert (proved); everything except consume proved for debug builds; consumer_scrambler_debug_exact says exactly which calls panic."
  },
  {
   "property": "C29",
   "status": "proved",
   "theorems": [
    "Verif.producer_scrambler_progress",
    "Verif.consumer_scrambler_progress",
    "Verif.producer_scrambler_empty_slice_diverges"
   ],
   "note": "For wrapped producers/consumers whose methods return and which never expose empty slices."
  },
  {
   "property": "C30",
   "status": "proved",
   "theorems": [
    "Verif.test_producer_plays",
    "Verif.test_producer_public_plays",
    "Verif.public_producer_plays",
    "Verif.test_producer_accessors",
    "Verif.test_producer_exposes"
   ],
   "note": "TestProducer, inner and public type, test and non-test builds; accessors after every history; exposed sizes cycle."
  },
  {
   "property": "C31",
   "status": "proved",
   "theorems": [
    "Verif.test_consumer_collects",
    "Verif.test_consumer_public_collects",
    "Verif.public_consumer_collects",
    "Verif.test_consumer_records",
    "Verif.test_consumer_accepts",
    "Verif.test_consumer_fails",
    "Verif.test_consumer_exposes"
   ],
   "note": "TestConsumer, inner and public type, test and non-test builds; accessors after every history; exposed sizes cycle."
  },
  {
   "property": "C32",
   "status": "proved",
   "theorems": [
    "Verif.yields_follow_pattern",
    "Verif.test_doubles_start",
    "Verif.test_producer_yields",
    "Verif.test_consumer_yields",
    "Verif.test_producer_bulk_yields",
    "Verif.test_consumer_bulk_yields"
   ],
   "note": "Executor assumption: a suspended future is polled again once it has been woken."
  },
  {
   "property": "C33",
   "status": "proved",
   "theorems": [
    "Verif.merge_trace",
    "Verif.merge_interleaves",
    "Verif.merge_final",
    "Verif.merge_plays",
    "Verif.merge_starves",
    "Verif.merge_exact"
   ],
   "note": "All readiness schedules; readiness of the two futures is an arbitrary oracle. merge_starves records that the first producer is preferred."
  },
  {
   "property": "C34",
   "status": "proved",
   "theorems": [
    "Verif.merge_trace",
    "Verif.merge_final",
    "Verif.merge_error",
    "Verif.merge_no_panic",
    "Verif.merge_returns",
    "Verif.merge_plays",
    "Verif.merge_exact"
   ],
   "note": "All readiness schedules; that every call returns needs fair schedules."
  },
  {
   "property": "C35",
   "status": "proved",
   "theorems": [
    "Verif.buf_reader_plays",
    "Verif.reader_plays",
    "Verif.reader_fixed_plays",
    "Verif.reader_static_plays",
    "Verif.reader_conserves",
    "Verif.reader_capacity_zero_panics",
    "Verif.reader_unexpected_eof_swallowed",
    "Verif.buf_reader_unexpected_eof_swallowed"
   ],
   "note": "read_exact of futures-lite is modelled as an assumption. Readers that fail with UnexpectedEof are excluded by the statement; the theorems *_swallowed show why."
  },
  {
   "property": "C36",
   "status": "proved",
   "theorems": [
    "Verif.writer_defers",
    "Verif.writer_fixed_defers",
    "Verif.writer_static_defers",
    "Verif.writer_history",
    "Verif.writer_writes_immediately",
    "Verif.writer_logged",
    "Verif.writer_conserves",
    "Verif.writer_capacity_zero_panics"
   ],
   "note": "write_all of futures-lite is modelled as an assumption."
  },
  {
   "property": "C47",
   "status": "partial",
   "theorems": [
    "Verif.bulk_produce_empty_partial",
    "Verif.bulk_consume_empty_partial",
    "Verif.producers_default",
    "Verif.consumers_default",
    "Verif.buf_reader_empty_buffer_ends",
    "Verif.reader_empty_buffer_ends",
    "Verif.writer_empty_buffer_fails",
    "Verif.reader_empty_buffer_exact",
    "Verif.writer_empty_buffer_exact",
    "Verif.empty_buffer_counterexamples"
   ],
   "note": "Holds for every lawful producer/consumer with the default bulk methods, i.e. all of the crate except the reader and writer adaptors. False for those (proved by counterexample): an empty buffer makes them report the end of the stream or a WriteZero error; reader_empty_buffer_exact and writer_empty_buffer_exact say exactly when."
  },
  {
   "property": "C37",
   "status": "proved",
   "theorems": [
    "Verif.big_endian_correct",
    "Verif.little_endian_correct"
   ],
   "note": "Field RoundTrips of Correct, for all sixteen types, all values, all lawful consumers and producers."
  },
  {
   "property": "C38",
   "status": "proved",
   "theorems": [
    "Verif.big_endian_correct",
    "Verif.little_endian_correct"
   ],
   "note": "Field Canonic of Correct, for all sixteen types."
  },
  {
   "property": "C39",
   "status": "proved",
   "theorems": [
    "Verif.big_endian_correct",
    "Verif.little_endian_correct"
   ],
   "note": "Field WritesPrefix of Correct, for all sixteen types."
  },
  {
   "property": "C40",
   "status": "partial",
   "theorems": [
    "Verif.encoder_decoder_inverse_iff",
    "Verif.encoder_decoder_inverse_partial",
    "Verif.canonic_encoder_decoder_inverse_partial",
    "Verif.endian_inverts",
    "Verif.encoder_collects",
    "Verif.encoder_defers",
    "Verif.empty_encoding_not_inverse",
    "Verif.empty_encoding_endless"
   ],
   "note": "Holds for a lawful codec exactly if no value has an empty encoding (encoder_decoder_inverse_iff), in particular for each endian codec. False for codecs with an empty encoding (proved: values with empty encodings are lost at the end of the stream, and repeated without end before it)."
  },
  {
   "property": "C41",
   "status": "proved",
   "theorems": [
    "Verif.decoder_plays",
    "Verif.canonic_decoder_plays",
    "Verif.decoder_ends",
    "Verif.canonic_decoder_ends",
    "Verif.decoder_invalid",
    "Verif.decoder_final_iff",
    "Verif.decoder_position",
    "Verif.canonic_decoder_position"
   ],
   "note": "For all lawful decoders of languages without empty words."
  },
  {
   "property": "C42",
   "status": "partial",
   "theorems": [
    "Verif.relative_encoder_decoder_inverse_iff",
    "Verif.relative_encoder_decoder_inverse_partial",
    "Verif.relative_canonic_encoder_decoder_inverse_partial",
    "Verif.relative_encoder_collects",
    "Verif.relative_decoder_plays",
    "Verif.relative_canonic_decoder_plays",
    "Verif.relative_to_unit",
    "Verif.relative_to_unit_slices",
    "Verif.difference_inverse",
    "Verif.relative_empty_encoding_not_inverse"
   ],
   "note": "Holds, for all sequences of set_relative_to, exactly if no value has an empty encoding relative to any value (relative_encoder_decoder_inverse_iff), as C40. Identity with the absolute adaptors relative to () proved in full."
  },
  {
   "property": "C45",
   "status": "proved",
   "theorems": [
    "Verif.encode_into_vec_eq",
    "Verif.encode_into_boxed_slice_eq",
    "Verif.relative_encode_into_vec_eq",
    "Verif.relative_encode_into_boxed_slice_eq",
    "Verif.decode_from_slice_spec",
    "Verif.decode_canonic_from_slice_spec",
    "Verif.relative_decode_from_slice_spec",
    "Verif.relative_decode_canonic_from_slice_spec",
    "Verif.decode_from_slice_encode_into_vec"
   ],
   "note": ""
  },
  {
   "property": "C46",
   "status": "proved",
   "theorems": [
    "Verif.from_produce_at_least",
    "Verif.from_error",
    "Verif.map_other_spec",
    "Verif.map_other_id",
    "Verif.map_other_comp",
    "Verif.blame_conversions",
    "Verif.decode_error_source"
   ],
   "note": "For every width of usize of at least 16 bits."
  },
  {
   "property": "C43",
   "status": "proved",
   "theorems": [
    "Verif.shared_linearizable",
    "Verif.shared_mutual_exclusion",
    "Verif.shared_no_deadlock",
    "Verif.shared_encoder_bytes",
    "Verif.shared_encoder_bytes_always",
    "Verif.shared_encoder_first_error",
    "Verif.shared_encoder_returns",
    "Verif.shared_encoder_close",
    "Verif.shared_relative_encoder_bytes",
    "Verif.shared_relative_encoder_bytes_always",
    "Verif.shared_relative_encoder_first_error"
   ],
   "note": "For any number of tasks, any schedule, any placement of suspension points, any lawful codec and consumer; for executions in which no future is dropped in its critical section (see C50), up to the first error."
  },
  {
   "property": "C44",
   "status": "proved",
   "theorems": [
    "Verif.shared_linearizable",
    "Verif.shared_mutual_exclusion",
    "Verif.shared_decoder_partition",
    "Verif.shared_decoder_partition_list",
    "Verif.shared_decoder_end",
    "Verif.shared_canonic_decoder_partition",
    "Verif.shared_relative_decoder_partition",
    "Verif.shared_relative_decoder_partition_ends",
    "Verif.shared_relative_canonic_decoder_partition"
   ],
   "note": "For any number of tasks, any schedule, any placement of suspension points, any lawful codec without empty encodings and any lawful producer, up to and including the first answer that is not a value."
  },
  {
   "property": "C49",
   "status": "partial",
   "theorems": [
    "Verif.shared_encoder_contract_partial",
    "Verif.shared_decoder_contract_partial",
    "Verif.shared_encoder_checked_partial",
    "Verif.shared_relative_encoder_checked_partial",
    "Verif.shared_decoder_checked_partial",
    "Verif.shared_canonic_decoder_checked_partial",
    "Verif.shared_relative_decoder_checked_partial",
    "Verif.shared_relative_canonic_decoder_checked_partial",
    "Verif.shared_encoder_failed_flush",
    "Verif.shared_decoder_ends",
    "Verif.shared_canonic_decoder_ends",
    "Verif.shared_relative_decoder_ends",
    "Verif.shared_relative_canonic_decoder_ends",
    "Verif.shared_encoder_misuse",
    "Verif.shared_decoder_misuse"
   ],
   "note": "Holds until some call returns an error or the final value: the shared value may then be wrapped in an Invariant, which does not panic. False afterwards (proved): the other tasks call methods of a consumer that has failed, or of a producer that has emitted its final value, although each task obeys the contract of its own adaptor. After the final value, or an error of slurp, every further call of any shared decoder (that needs the lock) violates the contract; so does every flush directly after a failed flush of a shared encoder."
  },
  {
   "property": "C50",
   "status": "partial",
   "theorems": [
    "Verif.shared_abandon_partial",
    "Verif.shared_drop_serial",
    "Verif.shared_encoder_drop_bytes_partial",
    "Verif.shared_encoder_drop_flush_partial",
    "Verif.shared_relative_encoder_drop_bytes_partial",
    "Verif.shared_encoder_dropped"
   ],
   "note": "False for consume futures that are dropped in the critical section (proved by a witness): the others continue after an incomplete encoding. What is proved for all executions with any drops: the bytes are complete encodings of the values of the completed calls, in order, and beginnings of encodings of the values whose calls were dropped with the lock, at most one per task; so the claim holds if no consume call is dropped. Futures that are dropped while they await the lock have no effect (these steps are included in C43, C44)."
  },
  {
   "property": "C51",
   "status": "proved",
   "theorems": [
    "Verif.bulk_produce_default_lawful",
    "Verif.bulk_produce_default_buffer",
    "Verif.bulk_produce_default_amount",
    "Verif.bulk_consume_default_lawful",
    "Verif.bulk_consume_default_defers",
    "Verif.bulk_consume_default_amount"
   ],
   "note": "For every implementation of the traits whose required methods are lawful (for the buffer: lawful or not)."
  },
  {
   "property": "C52",
   "status": "proved",
   "theorems": [
    "Verif.encoding_does_not_care_silent",
    "Verif.distinct_encodings_silent",
    "Verif.prefix_free_silent",
    "Verif.decoding_does_not_care_silent",
    "Verif.reads_no_excessive_bytes_silent",
    "Verif.yields_the_original_silent",
    "Verif.canonic_silent",
    "Verif.basic_silent",
    "Verif.known_size_silent",
    "Verif.fuzz_absolute_silent",
    "Verif.fuzz_relative_silent",
    "Verif.endian_silent"
   ],
   "note": "For every codec that obeys the contracts. Decoders are assumed to change the producer only through its methods (Uniform), which Rust's type system guarantees."
  },
  {
   "property": "C53",
   "status": "partial",
   "theorems": [
    "Verif.fuzz_basic_detects_partial",
    "Verif.fuzz_canonic_detects",
    "Verif.fuzz_known_size_detects",
    "Verif.fuzz_basic_silent_iff",
    "Verif.fuzz_canonic_silent_iff",
    "Verif.fuzz_known_size_silent_iff",
    "Verif.fuzz_absolute_targets",
    "Verif.fuzz_relative_targets",
    "Verif.fuzz_blind_to_consumer",
    "Verif.fuzz_blind_to_overreading"
   ],
   "note": "Proved: what silence on all inputs does imply, and conditions that are equivalent to it (the iff theorems, for arbitrary methods). The full claim is false (proved by two codecs that break the contract and pass for all inputs): one of two encodings may be a strict prefix of the other depending on the consumer, and a decoder may read one byte too many."
  },
  {
   "property": "C54",
   "status": "proved",
   "theorems": [
    "Verif.consume_at_least_display",
    "Verif.produce_at_least_display",
    "Verif.pipe_error_display",
    "Verif.error_sources",
    "Verif.decode_error_display",
    "Verif.decode_error_display_payload",
    "Verif.blame_display"
   ],
   "note": "The payload part for DecodeError assumes that the Display implementations of the payloads are injective."
  },
  {
   "property": "C56",
   "status": "proved",
   "theorems": [
    "Verif.pipe_leaves",
    "Verif.bulk_pipe_leaves",
    "Verif.bulk_pipe_leaves_exact",
    "Verif.pipe_at_most_leaves",
    "Verif.bulk_pipe_at_most_leaves",
    "Verif.bulk_pipe_may_repeat"
   ],
   "note": "bulk_pipe_may_repeat shows by a lawful consumer that the condition for exactness is needed."
  },
  {
   "property": "C55",
   "status": "proved",
   "theorems": [
    "Verif.Fuzz.consume_full_slice_passes",
    "Verif.Fuzz.bulk_consume_full_slice_passes",
    "Verif.Fuzz.overwrite_full_slice_passes",
    "Verif.Fuzz.bulk_overwrite_full_slice_passes",
    "Verif.Fuzz.pipe_passes",
    "Verif.Fuzz.bulk_pipe_passes",
    "Verif.Fuzz.pipe_at_most_passes",
    "Verif.Fuzz.bulk_pipe_at_most_passes",
    "Verif.Fuzz.bulk_consume_passes",
    "Verif.Fuzz.bulk_produce_passes",
    "Verif.Fuzz.from_slice_passes",
    "Verif.Fuzz.from_boxed_slice_passes",
    "Verif.Fuzz.consumer_scrambler_target_iff",
    "Verif.Fuzz.consumer_invariant_target_iff",
    "Verif.Fuzz.into_vec_passes",
    "Verif.Fuzz.into_vec_target_panics",
    "Verif.Fuzz.producer_scrambler_passes",
    "Verif.Fuzz.consumer_scrambler_passes",
    "Verif.Fuzz.consumer_scrambler_target_panics",
    "Verif.Fuzz.producer_invariant_passes",
    "Verif.Fuzz.consumer_invariant_passes",
    "Verif.Fuzz.consumer_invariant_target_panics",
    "Verif.Fuzz.merge_passes",
    "Verif.Fuzz.merge_passes_or_waits",
    "Verif.Fuzz.send_half_passes",
    "Verif.Fuzz.send_half_panics",
    "Verif.Fuzz.receive_half_passes",
    "Verif.Fuzz.receive_half_buf_passes",
    "Verif.Fuzz.connection_passes",
    "Verif.Fuzz.fixed_passes",
    "Verif.Fuzz.static_passes",
    "Verif.Fuzz.queue_target_detects",
    "Verif.Fuzz.queue_target_blind"
   ],
   "note": "The exception is proved too (the four theorems ending in panics). queue_target_blind: a wrong queue that the bulk queue targets accept on all inputs. The two iff theorems say exactly on which inputs the targets with a scrambled test consumer fail."
  },
  {
   "property": "C57",
   "status": "proved",
   "theorems": [
    "Verif.pipe_deferred",
    "Verif.bulk_pipe_deferred",
    "Verif.pipe_deferred_ok",
    "Verif.DeferredPipe.delivered",
    "Verif.DeferredPipe.prefix",
    "Verif.pipe_at_most_deferred",
    "Verif.bulk_pipe_at_most_deferred",
    "Verif.DeferredAtMost.delivered",
    "Verif.consume_full_slice_deferred",
    "Verif.bulk_consume_full_slice_deferred",
    "Verif.copy_reader_to_writer"
   ],
   "note": "DeferredPipe and DeferredAtMost list what may come out; the same lists hold for the bulk and the item-wise functions."
  },
  {
   "property": "C58",
   "status": "proved",
   "theorems": [
    "Verif.word_fixed_fifo",
    "Verif.word_static_fifo",
    "Verif.word_fixed_fifo_sized",
    "Verif.word_static_fifo_sized",
    "Verif.word_fixed_overflows",
    "Verif.word_static_overflows",
    "Verif.word_fixed_fifo_iff",
    "Verif.word_static_fifo_iff",
    "Verif.word_fixed_debug",
    "Verif.word_static_debug"
   ],
   "note": "The second model of the queues (Model/WordQueue.lean) shares only the state types with the first. The overflow for zero-sized items is finding 18."
  },
  {
   "property": "C59",
   "status": "proved",
   "theorems": [
    "Verif.TestVectors.generate_absolute",
    "Verif.TestVectors.generate_canonic_absolute",
    "Verif.TestVectors.generate_relative",
    "Verif.TestVectors.generate_relative_custom",
    "Verif.TestVectors.generate_canonic_relative",
    "Verif.TestVectors.absolute_vectors",
    "Verif.TestVectors.canonic_absolute_vectors",
    "Verif.TestVectors.relative_vectors",
    "Verif.TestVectors.relative_custom_vectors",
    "Verif.TestVectors.canonic_relative_vectors",
    "Verif.TestVectors.generate_absolute_panics",
    "Verif.TestVectors.corpus_targets_silent",
    "Verif.TestVectors.relative_corpus_targets_silent",
    "Verif.TestVectors.stale_vectors",
    "Verif.TestVectors.vectors_with_trailing_bytes",
    "Verif.TestVectors.relative_reencoded_absolute"
   ],
   "note": "Files are modelled as a map from folder and number to contents; reading and writing do not fail. The last three theorems show what does not hold (finding 19)."
  },
  {
   "property": "C60",
   "status": "partial",
   "theorems": [
    "Verif.arbitrary_test_producer_iff",
    "Verif.arbitrary_test_producer_plays",
    "Verif.arbitrary_test_consumer_iff",
    "Verif.arbitrary_test_consumer_collects",
    "Verif.arbitrary_test_yielder",
    "Verif.arbitrary_test_consumer_hint",
    "Verif.arbitrary_test_yielder_hint",
    "Verif.arbitrary_test_producer_hint_wrong",
    "Verif.arbitrary_test_producer_hint_never",
    "Verif.arbitrary_test_producer_hint_partial"
   ],
   "note": "All but the size hint of TestProducer, which is wrong (finding 20): arbitrary_test_producer_hint_wrong is the negation, which holds for all item, final and (sensible) error types (arbitrary_test_producer_hint_never), arbitrary_test_producer_hint_partial says which hint would be right."
  },
  {
   "property": "C61",
   "status": "proved",
   "theorems": [
    "Verif.Async.consumeFullSlice_run",
    "Verif.Async.bulkConsumeFullSlice_run",
    "Verif.Async.produceItem_run",
    "Verif.Async.overwriteFullSlice_run",
    "Verif.Async.bulkOverwriteFullSlice_run",
    "Verif.Async.pipe_run",
    "Verif.Async.bulkPipe_run",
    "Verif.Async.pipeAtMost_run",
    "Verif.Async.bulkPipeAtMost_run",
    "Verif.Async.limitProducer_seq",
    "Verif.Async.limitBufferedProducer_seq",
    "Verif.Async.limitBulkProducer_seq",
    "Verif.Async.mapItemProducer_seq",
    "Verif.Async.mapItemBufferedProducer_seq",
    "Verif.Async.mapFinalProducer_seq",
    "Verif.Async.mapFinalBufferedProducer_seq",
    "Verif.Async.mapFinalBulkProducer_seq",
    "Verif.Async.mapErrorProducer_seq",
    "Verif.Async.mapErrorBufferedProducer_seq",
    "Verif.Async.mapErrorBulkProducer_seq",
    "Verif.Async.invariantProducer_seq",
    "Verif.Async.invariantBufferedProducer_seq",
    "Verif.Async.invariantBulkProducer_seq",
    "Verif.Async.invariantNoopBulkProducer_seq",
    "Verif.Async.limitConsumer_seq",
    "Verif.Async.limitBufferedConsumer_seq",
    "Verif.Async.limitBulkConsumer_seq",
    "Verif.Async.mapItemConsumer_seq",
    "Verif.Async.mapItemBufferedConsumer_seq",
    "Verif.Async.mapFinalConsumer_seq",
    "Verif.Async.mapFinalBufferedConsumer_seq",
    "Verif.Async.mapFinalBulkConsumer_seq",
    "Verif.Async.mapErrorConsumer_seq",
    "Verif.Async.mapErrorBufferedConsumer_seq",
    "Verif.Async.mapErrorBulkConsumer_seq",
    "Verif.Async.invariantConsumer_seq",
    "Verif.Async.invariantBufferedConsumer_seq",
    "Verif.Async.invariantBulkConsumer_seq",
    "Verif.Async.invariantNoopBulkConsumer_seq",
    "Verif.Async.producerScrambler_seq",
    "Verif.Async.consumerScrambler_seq",
    "Verif.Async.readExact_run",
    "Verif.Async.writeAll_run",
    "Verif.Async.bufReaderProducer_seq",
    "Verif.Async.readerProducer_seq",
    "Verif.Async.writerConsumer_seq",
    "Verif.Async.FixedInt.encode_run",
    "Verif.Async.FixedInt.decode_run",
    "Verif.Async.FixedInt.encode_uniform",
    "Verif.Async.FixedInt.decode_uniform",
    "Verif.Async.encoder_seq",
    "Verif.Async.decoder_seq",
    "Verif.Async.canonicDecoder_seq",
    "Verif.Async.relativeEncoder_seq",
    "Verif.Async.relativeDecoder_seq",
    "Verif.Async.relativeCanonicDecoder_seq",
    "Verif.Async.TestYielder.maybeYield_run",
    "Verif.Async.maybeYield_run",
    "Verif.Async.testProducer_seq",
    "Verif.Async.testConsumer_seq",
    "Verif.Async.pipe_oblivious",
    "Verif.Async.bulkPipe_oblivious",
    "Verif.Async.pipe_polled",
    "Verif.Async.bulkPipe_polled"
   ],
   "note": "Fut: futures as state machines with poll; run: polled to completion. x_run / x_seq: polled to completion, the poll-level model of x is the sequential model, on which all other properties are proved."
  },
  {
   "property": "C62",
   "status": "proved",
   "theorems": [
    "Verif.Async.merge_scheduled",
    "Verif.Async.merge_polled_trace",
    "Verif.Async.merge_polled_returns",
    "Verif.Async.merge_polled_plays",
    "Verif.Async.merge_pending",
    "Verif.Async.merge_drop",
    "Verif.Async.shared_polled_linearizable",
    "Verif.Async.suspension_progress",
    "Verif.Async.shared_polled_completes",
    "Verif.Async.shared_polled_no_deadlock",
    "Verif.Async.shared_polled_realizable",
    "Verif.Async.sharedEncoder_seq",
    "Verif.Async.sharedDecoder_seq",
    "Verif.Async.sharedCanonicDecoder_seq",
    "Verif.Async.sharedRelativeEncoder_seq",
    "Verif.Async.sharedRelativeDecoder_seq",
    "Verif.Async.sharedRelativeCanonicDecoder_seq",
    "Verif.Async.shared_polled_encoder_bytes",
    "Verif.Async.shared_polled_decoder_partition",
    "Verif.Async.shared_polled_relative_encoder_bytes",
    "Verif.Async.shared_polled_relative_decoder_partition"
   ],
   "note": "merge_scheduled: the schedules of C33, C34 are adequate for polling. suspension: the suspension points of C43, C44 that polling gives rise to."
  },
  {
   "property": "C63",
   "status": "proved",
   "theorems": [
    "Verif.Async.limitProducer_counts",
    "Verif.Async.limitBufferedProducer_counts",
    "Verif.Async.limitBulkProducer_counts",
    "Verif.Async.mapItemProducer_counts",
    "Verif.Async.mapItemBufferedProducer_counts",
    "Verif.Async.mapFinalProducer_counts",
    "Verif.Async.mapFinalBufferedProducer_counts",
    "Verif.Async.mapFinalBulkProducer_counts",
    "Verif.Async.mapErrorProducer_counts",
    "Verif.Async.mapErrorBufferedProducer_counts",
    "Verif.Async.mapErrorBulkProducer_counts",
    "Verif.Async.invariantProducer_counts",
    "Verif.Async.invariantBufferedProducer_counts",
    "Verif.Async.invariantBulkProducer_counts",
    "Verif.Async.invariantNoopBulkProducer_counts",
    "Verif.Async.limitConsumer_counts",
    "Verif.Async.limitBufferedConsumer_counts",
    "Verif.Async.limitBulkConsumer_counts",
    "Verif.Async.mapItemConsumer_counts",
    "Verif.Async.mapItemBufferedConsumer_counts",
    "Verif.Async.mapFinalConsumer_counts",
    "Verif.Async.mapFinalBufferedConsumer_counts",
    "Verif.Async.mapFinalBulkConsumer_counts",
    "Verif.Async.mapErrorConsumer_counts",
    "Verif.Async.mapErrorBufferedConsumer_counts",
    "Verif.Async.mapErrorBulkConsumer_counts",
    "Verif.Async.invariantConsumer_counts",
    "Verif.Async.invariantBufferedConsumer_counts",
    "Verif.Async.invariantBulkConsumer_counts",
    "Verif.Async.invariantNoopBulkConsumer_counts",
    "Verif.Async.produceItem_counts",
    "Verif.Async.consumeFullSlice_counts",
    "Verif.Async.overwriteFullSlice_counts",
    "Verif.Async.bulkConsumeFullSlice_counts",
    "Verif.Async.bulkOverwriteFullSlice_counts",
    "Verif.Async.pipe_counts",
    "Verif.Async.bulkPipe_counts",
    "Verif.Async.pipeAtMost_counts",
    "Verif.Async.bulkPipeAtMost_counts",
    "Verif.Async.ProducerScrambler.advance_counts",
    "Verif.Async.ConsumerScrambler.advance_counts",
    "Verif.Async.ProducerScrambler.performOperation_counts",
    "Verif.Async.ProducerScrambler.fillQueue_counts",
    "Verif.Async.producerScrambler_counts",
    "Verif.Async.ConsumerScrambler.performOperation_counts",
    "Verif.Async.ConsumerScrambler.drain_counts",
    "Verif.Async.consumerScrambler_counts",
    "Verif.Async.readByte_counts",
    "Verif.Async.writeAll_counts",
    "Verif.Async.bufReaderProducer_counts",
    "Verif.Async.readerProducer_counts",
    "Verif.Async.writerConsumer_counts",
    "Verif.Async.FixedInt.encode_counts",
    "Verif.Async.FixedInt.decode_counts",
    "Verif.Async.encoder_counts",
    "Verif.Async.decoderProduce_counts",
    "Verif.Async.decoderSlurp_counts",
    "Verif.Async.decoder_counts",
    "Verif.Async.canonicDecoder_counts",
    "Verif.Async.relativeEncoder_counts",
    "Verif.Async.relativeDecoder_counts",
    "Verif.Async.relativeCanonicDecoder_counts",
    "Verif.Async.TestYielder.maybeYield_counts",
    "Verif.Async.maybeYield_counts",
    "Verif.Async.TestProducer.takeError_counts",
    "Verif.Async.testProducer_counts",
    "Verif.Async.TestConsumer.enter_counts",
    "Verif.Async.TestConsumer.nextSize_counts",
    "Verif.Async.testConsumer_counts",
    "Verif.Async.Fut.counted_ends",
    "Verif.Async.Fut.counted_always",
    "Verif.Async.BulkProducer.counted_counts",
    "Verif.Async.BulkConsumer.counted_counts",
    "Verif.Async.bulkPipe_counted"
   ],
   "note": "Always: holds of the number of times a future was pending and its output. Counts w: w, a function of the state, grows by the number of times each method is pending; BulkProducer.counted and BulkConsumer.counted add such a counter to any producer and consumer."
  },
  {
   "property": "C64",
   "status": "proved",
   "theorems": [
    "Verif.word_bulk_consume_full_slice",
    "Verif.word_bulk_overwrite_full_slice",
    "Verif.word_pipe_at_most_any",
    "Verif.word_pipe_at_most",
    "Verif.word_bulk_pipe_at_most",
    "Verif.word_pipe",
    "Verif.word_bulk_pipe",
    "Verif.word_from_slice_same",
    "Verif.word_from_slice_plays",
    "Verif.word_from_boxed_slice_same",
    "Verif.word_from_boxed_slice_plays",
    "Verif.word_invariant_producer",
    "Verif.word_invariant_consumer",
    "Verif.word_limit_producer_same",
    "Verif.word_limit_plays_partial",
    "Verif.word_limit_consumer_same",
    "Verif.word_limit_collects",
    "Verif.word_limit_until",
    "Verif.word_into_vec_same",
    "Verif.word_into_vec_new_same",
    "Verif.word_limit_into_vec_collects",
    "Verif.word_pipe_from_slice_into_vec",
    "Verif.word_into_vec_overflows",
    "Verif.word_public_producer",
    "Verif.word_public_consumer",
    "Verif.word_test_producer_same",
    "Verif.word_test_producer_plays",
    "Verif.word_test_consumer_at",
    "Verif.word_test_consumer_until",
    "Verif.word_test_consumer_same",
    "Verif.word_test_consumer_collects",
    "Verif.word_producer_scrambler_same",
    "Verif.word_producer_scrambler_plays_without_slurp",
    "Verif.word_producer_scrambler_plays_partial",
    "Verif.word_consumer_scrambler_same",
    "Verif.word_consumer_scrambler_defers",
    "Verif.word_reader_plays",
    "Verif.word_writer_defers"
   ],
   "note": "Word: the size of a word and whether overflow is checked. Same: after every history of allowed calls, every allowed call gives exactly the same outcome as in the model with unbounded numbers; so all laws carry over (Same.plays, Same.collects, Same.defers). The theorems ending in _partial carry over laws of C20 and C27 that are partial for reasons unrelated to arithmetic."
  },
  {
   "property": "C65",
   "status": "proved",
   "theorems": [
    "Verif.Async.limitProducer_hangs",
    "Verif.Async.limitBufferedProducer_hangs",
    "Verif.Async.limitBulkProducer_hangs",
    "Verif.Async.mapItemProducer_hangs",
    "Verif.Async.mapItemBufferedProducer_hangs",
    "Verif.Async.mapFinalProducer_hangs",
    "Verif.Async.mapFinalBufferedProducer_hangs",
    "Verif.Async.mapFinalBulkProducer_hangs",
    "Verif.Async.mapErrorProducer_hangs",
    "Verif.Async.mapErrorBufferedProducer_hangs",
    "Verif.Async.mapErrorBulkProducer_hangs",
    "Verif.Async.invariantProducer_hangs",
    "Verif.Async.invariantBufferedProducer_hangs",
    "Verif.Async.invariantBulkProducer_hangs",
    "Verif.Async.invariantNoopBulkProducer_hangs",
    "Verif.Async.limitConsumer_hangs",
    "Verif.Async.limitBufferedConsumer_hangs",
    "Verif.Async.limitBulkConsumer_hangs",
    "Verif.Async.mapItemConsumer_hangs",
    "Verif.Async.mapItemBufferedConsumer_hangs",
    "Verif.Async.mapFinalConsumer_hangs",
    "Verif.Async.mapFinalBufferedConsumer_hangs",
    "Verif.Async.mapFinalBulkConsumer_hangs",
    "Verif.Async.mapErrorConsumer_hangs",
    "Verif.Async.mapErrorBufferedConsumer_hangs",
    "Verif.Async.mapErrorBulkConsumer_hangs",
    "Verif.Async.invariantConsumer_hangs",
    "Verif.Async.invariantBufferedConsumer_hangs",
    "Verif.Async.invariantBulkConsumer_hangs",
    "Verif.Async.invariantNoopBulkConsumer_hangs",
    "Verif.Async.produceItem_hangs",
    "Verif.Async.consumeFullSlice_hangs",
    "Verif.Async.overwriteFullSlice_hangs",
    "Verif.Async.bulkConsumeFullSlice_hangs",
    "Verif.Async.bulkOverwriteFullSlice_hangs",
    "Verif.Async.pipe_hangs",
    "Verif.Async.bulkPipe_hangs",
    "Verif.Async.pipeAtMost_hangs",
    "Verif.Async.bulkPipeAtMost_hangs",
    "Verif.Async.ProducerScrambler.performOperation_hangs",
    "Verif.Async.ProducerScrambler.fillQueue_hangs",
    "Verif.Async.producerScrambler_hangs",
    "Verif.Async.ConsumerScrambler.performOperation_hangs",
    "Verif.Async.ConsumerScrambler.drain_hangs",
    "Verif.Async.consumerScrambler_hangs",
    "Verif.Async.readByte_hangs",
    "Verif.Async.writeAll_hangs",
    "Verif.Async.bufReaderProducer_hangs",
    "Verif.Async.readerProducer_hangs",
    "Verif.Async.writerConsumer_hangs",
    "Verif.Async.FixedInt.encode_hangs",
    "Verif.Async.FixedInt.decode_hangs",
    "Verif.Async.encoder_hangs",
    "Verif.Async.decoderProduce_hangs",
    "Verif.Async.decoderSlurp_hangs",
    "Verif.Async.decoder_hangs",
    "Verif.Async.canonicDecoder_hangs",
    "Verif.Async.relativeEncoder_hangs",
    "Verif.Async.relativeDecoder_hangs",
    "Verif.Async.relativeCanonicDecoder_hangs",
    "Verif.Async.merge_polls_both",
    "Verif.Async.merge_hangs",
    "Verif.Async.shared_encoder_hangs",
    "Verif.Async.shared_relative_encoder_hangs",
    "Verif.Async.shared_decoder_hangs",
    "Verif.Async.shared_canonic_decoder_hangs",
    "Verif.Async.shared_relative_decoder_hangs",
    "Verif.Async.shared_relative_canonic_decoder_hangs",
    "Verif.Async.test_yielder_goes_on"
   ],
   "note": "Hangs: whenever a poll leaves the future pending in state k, polling k again is pending in k. For all wrapped futures with that property, the future of the crate has it. The mutex of the shared adaptors is external; the theorems are about their critical sections."
  },
  {
   "property": "C66",
   "status": "partial",
   "theorems": [
    "Verif.shared_drop_serial",
    "Verif.shared_decoder_drop_partial",
    "Verif.shared_canonic_decoder_drop_partial",
    "Verif.shared_relative_decoder_drop_partial",
    "Verif.shared_relative_canonic_decoder_drop_partial",
    "Verif.shared_decoder_dropped",
    "Verif.shared_relative_decoder_dropped"
   ],
   "note": "False for produce futures that are dropped in the critical section (proved by a witness): the others continue in the middle of a value and may decode a value that was never encoded. What is proved for all executions with any drops: the bytes read are encodings of the answered values, in order, and what the dropped calls have read, at most one per task and not beyond the end of an encoding. Futures that are dropped while they await the lock have no effect (these steps are included in C44)."
  },
  {
   "property": "C67",
   "status": "partial",
   "theorems": [
    "Verif.arbitrary_invariant_noop_iff",
    "Verif.arbitrary_invariant_noop_plays",
    "Verif.arbitrary_invariant_noop_collects",
    "Verif.arbitrary_invariant_noop_hint",
    "Verif.arbitrary_invariant_iff",
    "Verif.arbitrary_invariant_hint",
    "Verif.arbitrary_invariant_plays_partial",
    "Verif.arbitrary_invariant_collects_partial",
    "Verif.arbitrary_invariant_inactive",
    "Verif.arbitrary_invariant_unchecked",
    "Verif.arbitrary_invariant_plays_iff",
    "Verif.arbitrary_invariant_collects_iff",
    "Verif.arbitrary_invariant_new_iff"
   ],
   "note": "Proved for the variant without checks, and the size hints of both. False for the variant with checks: if the bool that is created from the bytes is false then the wrapper panics at every call, and the number of exposed items is created from the bytes, so that too large amounts can pass the check (both proved). What is proved: lawful producers and consumers stay lawful exactly if the bool is true, that is, if the byte after the wrapped value is odd; and the wrapper answers all sequences of calls as one made with new exactly if the bool is true and the usize is 0."
  },
  {
   "property": "C68",
   "status": "partial",
   "theorems": [
    "Verif.limit_into_inner",
    "Verif.map_final_into_inner",
    "Verif.map_final_into_inner_plays",
    "Verif.map_error_into_inner",
    "Verif.map_error_into_inner_plays",
    "Verif.producer_invariant_into_inner",
    "Verif.producer_invariant_into_inner_plays",
    "Verif.producer_noop_into_inner_plays",
    "Verif.map_item_into_inner",
    "Verif.map_item_into_inner_plays",
    "Verif.limit_consumer_into_inner",
    "Verif.map_final_consumer_into_inner",
    "Verif.map_final_consumer_into_inner_collects",
    "Verif.map_error_consumer_into_inner",
    "Verif.map_error_consumer_into_inner_collects",
    "Verif.consumer_invariant_into_inner",
    "Verif.consumer_invariant_into_inner_collects",
    "Verif.consumer_noop_into_inner_collects",
    "Verif.map_item_consumer_into_inner",
    "Verif.map_item_consumer_into_inner_collects",
    "Verif.reader_into_inner",
    "Verif.writer_into_inner_partial",
    "Verif.writer_error_keeps_written",
    "Verif.producer_scrambler_into_inner_partial",
    "Verif.producer_scrambler_into_inner_loses",
    "Verif.consumer_scrambler_into_inner_partial",
    "Verif.consumer_scrambler_into_inner_loses",
    "Verif.decoder_position",
    "Verif.canonic_decoder_position",
    "Verif.encoder_consumes",
    "Verif.from_slice_accessors",
    "Verif.from_boxed_slice_accessors"
   ],
   "note": "Proved for limit, map_item, map_final, map_error, both invariant wrappers, readers (any reader), and (for emitted or accepted values) decoders and encoders. False for the scramblers, which drop the items in their buffers, and for writers after an error, where the recovered queue still contains bytes that have been written (all proved by witnesses). What is proved for the scramblers: at most a buffer full of items is lost, nothing after a successful flush; for writers: nothing is lost or repeated while no call has failed."
  },
  {
   "property": "C69",
   "status": "partial",
   "theorems": [
    "Verif.test_producer_eq_partial",
    "Verif.test_producer_eq_forgets_last",
    "Verif.test_producer_eq_changes_at_the_end",
    "Verif.test_consumer_accessors",
    "Verif.test_consumer_eq"
   ],
   "note": "Consumers: proved in full. Producers: proved which producers are equal (same items, and either both have yet to emit the same last value, or both have emitted theirs). The documented claim is false (proved by witnesses): a last value that has been emitted is forgotten, so producers that have emitted different last values are equal, and a producer is unequal to what it was before emitting its last value."
  },
  {
   "property": "C70",
   "status": "proved",
   "theorems": [
    "Verif.into_slice_collects",
    "Verif.into_slice_accessors",
    "Verif.into_slice_untouched"
   ],
   "note": "The crate does not compile this file (its module declaration is commented out, and it implements an older, synchronous form of the traits); its methods are modelled as methods of the current traits."
  },
  {
   "property": "C71",
   "status": "partial",
   "theorems": [
    "Verif.fixed_try_new",
    "Verif.fixed_new_in",
    "Verif.fixed_try_new_partial",
    "Verif.fixed_try_new_panics",
    "Verif.fixed_zero_allocates_nothing",
    "Verif.fixed_try_new_fifo"
   ],
   "note": "Proved in full for allocators that grant exactly what is requested, apart from capacity 0, for which there is no allocation (fixed_zero_allocates_nothing). Vec documents only that at least as much is granted: then try_new panics if the excess cannot be returned (fixed_try_new_panics); the rest holds (fixed_try_new_partial)."
  },
  {
   "property": "C72",
   "status": "proved",
   "theorems": [
    "Verif.static_like_fixed"
   ],
   "note": "Including calls that violate the documented invariants (only slots that have just been exposed are written to: the borrow checker rules out anything else)."
  },
  {
   "property": "C73",
   "status": "proved",
   "theorems": [
    "Verif.reader_sidesteps",
    "Verif.writer_sidesteps",
    "Verif.FifoLaw.saysEmpty",
    "Verif.reader_only_expose_fills",
    "Verif.writer_only_slots_fill"
   ],
   "note": "The first two for arbitrary (also unlawful) readers and writers and arbitrary queues that say they are empty (FifoLaw.saysEmpty: new Fixed and Static queues of every capacity do); the last two for readers that respect buffer lengths, writers that return, and FIFO queues of capacity at least 1."
  },
  {
   "property": "C74",
   "status": "proved",
   "theorems": [
    "Verif.big_endian_order",
    "Verif.big_endian_signed_order",
    "Verif.little_endian_order"
   ],
   "note": ""
  },
  {
   "property": "C75",
   "status": "partial",
   "theorems": [
    "Verif.producer_scrambler_debug_same",
    "Verif.consumer_scrambler_debug_exact",
    "Verif.consumer_scrambler_debug_call",
    "Verif.consumer_scrambler_debug_runs",
    "Verif.consumer_scrambler_debug_same",
    "Verif.consumer_scrambler_debug_consume_panics"
   ],
   "note": "True of producers. False of consumers (negation proved): consume panics, with debug assertions, exactly where it would have succeeded on a full buffer; every other call is the same."
  },
  {
   "property": "C76",
   "status": "proved",
   "theorems": [
    "Verif.Async.pipe_abandoned",
    "Verif.Async.bulk_pipe_abandoned",
    "Verif.Async.pipe_at_most_abandoned",
    "Verif.Async.bulk_pipe_at_most_abandoned",
    "Verif.Async.bulk_overwrite_full_slice_abandoned"
   ],
   "note": "About the states in which the futures of Model/AsyncTraits.lean can be between polls."
  },
  {
   "property": "C77",
   "status": "proved",
   "theorems": [
    "Verif.cloning_copies",
    "Verif.from_slice_clones_once",
    "Verif.from_boxed_slice_clones_once",
    "Verif.bulk_pipe_clones_once",
    "Verif.bulk_pipe_at_most_clones_once",
    "Verif.consume_full_slice_clones_once",
    "Verif.slice_into_vec_clones_once",
    "Verif.fixed_clones_once",
    "Verif.static_clones_once",
    "Verif.dequeue_keeps_originals"
   ],
   "note": "clone is an arbitrary function; cloning_copies: with the identity these are the functions of the rest of the model."
  },
  {
   "property": "C78",
   "status": "partial",
   "theorems": [
    "Verif.from_slice_produce_unwound",
    "Verif.from_boxed_slice_produce_unwound",
    "Verif.bulk_produce_unwound",
    "Verif.bulk_consume_unwound",
    "Verif.consume_full_slice_unwound",
    "Verif.fixed_unwound_partial",
    "Verif.static_unwound_partial",
    "Verif.fixed_unwound_keeps_iff",
    "Verif.static_unwound_keeps_iff",
    "Verif.fixed_unwound_loses",
    "Verif.static_unwound_loses"
   ],
   "note": "Fails for dequeue of both queues: the item whose clone panics has already been removed. fixed_unwound_keeps_iff and static_unwound_keeps_iff say that the queues keep all items for exactly those clone that never panic."
  },
  {
   "property": "C79",
   "status": "proved",
   "theorems": [
    "Verif.map_item_producer_calls",
    "Verif.map_final_producer_calls",
    "Verif.map_error_producer_calls",
    "Verif.invariant_producer_calls",
    "Verif.invariant_noop_producer_calls",
    "Verif.limit_producer_calls",
    "Verif.map_item_consumer_calls",
    "Verif.map_final_consumer_calls",
    "Verif.map_error_consumer_calls",
    "Verif.invariant_consumer_calls",
    "Verif.invariant_noop_consumer_calls",
    "Verif.limit_consumer_calls",
    "Verif.pipe_calls",
    "Verif.pipe_at_most_calls",
    "Verif.bulk_pipe_calls",
    "Verif.bulk_pipe_at_most_calls",
    "Verif.consume_full_slice_calls",
    "Verif.bulk_consume_full_slice_calls",
    "Verif.produce_item_calls",
    "Verif.overwrite_full_slice_calls",
    "Verif.bulk_overwrite_full_slice_calls",
    "Verif.encoder_calls",
    "Verif.relative_encoder_calls",
    "Verif.decoder_calls",
    "Verif.canonic_decoder_calls",
    "Verif.relative_decoder_calls",
    "Verif.relative_canonic_decoder_calls",
    "Verif.endian_calls"
   ],
   "note": "The wrapped producers and consumers are arbitrary; recordedProducer and recordedConsumer keep a record of the calls that they get."
  },
  {
   "property": "C80",
   "status": "proved",
   "theorems": [
    "Verif.producer_scrambler_calls",
    "Verif.producer_scrambler_cycles",
    "Verif.producer_scrambler_ahead",
    "Verif.public_producer_scrambler_calls",
    "Verif.consumer_scrambler_calls",
    "Verif.consumer_scrambler_cycles",
    "Verif.consumer_scrambler_stops",
    "Verif.public_consumer_scrambler_calls"
   ],
   "note": "Calls that panic (consume on a full queue in debug builds, finding 6) end a history; nothing is said about what was called within them."
  },
  {
   "property": "C81",
   "status": "proved",
   "theorems": [
    "Verif.encoder_pipe",
    "Verif.file_written",
    "Verif.file_read",
    "Verif.file_read_canonic",
    "Verif.file_round_trip",
    "Verif.file_buf_round_trip",
    "Verif.file_copies"
   ],
   "note": "Codecs with empty encodings are excluded as in C40 (g [] = .more). load gives the reader of what has been written to a writer. Errors of the reader are the subject of file_read, with last = .error e."
  },
  {
   "property": "C82",
   "status": "proved",
   "theorems": [
    "Verif.into_vec_enlarged_when_full",
    "Verif.into_vec_growth",
    "Verif.into_vec_moves"
   ],
   "note": "ConsumerRunsCosting adds up costs along a history; every history has a cost (ConsumerRuns.costing). A call of resize_with that enlarges the vector is charged with its new length, which bounds the items moved and the default values created."
  },
  {
   "property": "C83",
   "status": "proved",
   "theorems": [
    "Verif.bulk_pipe_into_vec_rounds",
    "Verif.bulk_pipe_slice_into_vec_rounds"
   ],
   "note": "Rounds are read off the recorded calls of producer and consumer; cutShort counts those in which fewer items were consumed than exposed. The first theorem is about every pipe that returns, the second one shows that pipes from slices do."
  },
  {
   "property": "C84",
   "status": "proved",
   "theorems": [
    "Verif.limit_defers",
    "Verif.map_final_defers",
    "Verif.deferring_stack_defers",
    "Verif.bulk_pipe_into_deferring_stack",
    "Verif.pipe_into_deferring_stack_ok"
   ],
   "note": "Stacks are an inductive type DeferringLayers with their errors computed by DeferringLayers.faults. MapError is not among the layers because it panics at its second call (C24); scramblers with debug assertions are not because of C28. That Limit never lets more than the limit through is C21."
  },
  {
   "property": "C85",
   "status": "proved",
   "theorems": [
    "Verif.Async.merge_tree_plays",
    "Verif.Async.merge_tree_piped",
    "Verif.Async.merge_tree_collected"
   ],
   "note": "Trees are an inductive predicate MergeTree over the poll-level model of Merge; shuffles an inductive predicate of their own. Which leaf is preferred, and starvation, is C33 (merge_starves)."
  },
  {
   "property": "C86",
   "status": "proved",
   "theorems": [
    "Verif.scrambling_stack_plays",
    "Verif.scrambling_stack_plays_slurping",
    "Verif.pipe_from_scrambling_stack",
    "Verif.bulk_pipe_between_scramblers",
    "Verif.scrambler_slurp_leaks_error"
   ],
   "note": "The slurp method of the stack itself is not covered (C20, C27 show why it cannot be). scrambler_slurp_leaks_error shows that the restriction on slurping scramblers is needed."
  },
  {
   "property": "C87",
   "status": "proved",
   "theorems": [
    "Verif.source_stack_plays",
    "Verif.source_stack_is",
    "Verif.sink_stack_collects",
    "Verif.pipe_item_stacks",
    "Verif.sink_stack_answer",
    "Verif.sink_stack_close",
    "Verif.pipe_through_stacks"
   ],
   "note": "Item by item (produce and consume, flush included); MapItem does not implement the bulk traits. MapError is excluded as it works for one call only (C24)."
  },
  {
   "property": "C88",
   "status": "proved",
   "theorems": [
    "Verif.Async.source_stack_seq",
    "Verif.Async.source_stack_counts",
    "Verif.Async.source_stack_hangs",
    "Verif.Async.sink_stack_seq",
    "Verif.Async.sink_stack_counts",
    "Verif.Async.sink_stack_hangs",
    "Verif.Async.scrambling_stack_seq",
    "Verif.Async.scrambling_stack_counts",
    "Verif.Async.scrambling_stack_hangs",
    "Verif.Async.deferring_stack_seq",
    "Verif.Async.deferring_stack_counts",
    "Verif.Async.deferring_stack_hangs",
    "Verif.Async.pipe_stacks_polled",
    "Verif.Async.bulk_pipe_stacks_polled",
    "Verif.Async.pipe_stacks_hangs",
    "Verif.Async.bulk_pipe_stacks_hangs"
   ],
   "note": "Scramblers around consumers in release builds only (C28), those around producers without slurping (C86)."
  },
  {
   "property": "C89",
   "status": "proved",
   "theorems": [
    "Verif.Async.network_plays",
    "Verif.Async.pipe_from_network",
    "Verif.Async.multiplexed"
   ],
   "note": "The sequences that a network allows are given by recursion over the network (Async.Network); which of them is emitted depends on how often the leaves are pending."
  },
  {
   "property": "C90",
   "status": "partial",
   "theorems": [
    "Verif.bulk_pipe_hasty",
    "Verif.bulk_pipe_hasty_endless",
    "Verif.bulk_pipe_at_most_hasty_partial",
    "Verif.bulk_pipe_at_most_hasty_differs",
    "Verif.bulk_produce_hasty_partial",
    "Verif.bulk_produce_hasty_loses",
    "Verif.bulk_overwrite_full_slice_hasty_partial",
    "Verif.map_final_hasty",
    "Verif.invariant_hasty",
    "Verif.limit_hasty_partial",
    "Verif.limit_hasty_fails",
    "Verif.producer_scrambler_hasty",
    "Verif.hasty_respected"
   ],
   "note": "Proved for bulk_pipe, MapFinal, Invariant and BulkScrambler (all methods except slurp, as C27). False for bulk_pipe_at_most (an error instead of Ok(count)), the default bulk_produce and bulk_overwrite_full_slice (the items before the error are lost) and Limit (an error beyond the limit is reported); witnesses are proved, and what holds instead."
  },
  {
   "property": "C91",
   "status": "proved",
   "theorems": [
    "Verif.from_slice_expose_rests",
    "Verif.from_slice_ends_resting",
    "Verif.from_boxed_slice_expose_rests",
    "Verif.from_boxed_slice_ends_resting",
    "Verif.empty_again",
    "Verif.test_producer_again",
    "Verif.map_item_rests",
    "Verif.limit_rests",
    "Verif.limit_again",
    "Verif.limit_not_resting",
    "Verif.map_final_again",
    "Verif.map_final_rests",
    "Verif.unused_invariant_rests",
    "Verif.buf_reader_rests",
    "Verif.reader_rests",
    "Verif.producer_scrambler_ends_resting",
    "Verif.producer_scrambler_plays_resting_partial",
    "Verif.merge_ends_resting",
    "Verif.merge_goes_on_after_error",
    "Verif.decoder_rests",
    "Verif.canonic_decoder_rests",
    "Verif.relative_decoder_rests",
    "Verif.relative_canonic_decoder_rests",
    "Verif.shared_decoder_again",
    "Verif.shared_canonic_decoder_again",
    "Verif.shared_relative_decoder_again",
    "Verif.shared_relative_canonic_decoder_again"
   ],
   "note": "In tests, Invariant panics instead (C25), and MapError (used by the repository only on errors) panics (C24). The documentation forbids these calls; findings 11, 29 and 30 say where they happen or matter."
  },
  {
   "property": "C92",
   "status": "proved",
   "theorems": [
    "Verif.into_slice_refuses",
    "Verif.into_vec_after_close",
    "Verif.limit_consumer_refuses",
    "Verif.limit_consumer_again",
    "Verif.map_final_consumer_refuses",
    "Verif.map_final_closed_twice",
    "Verif.map_item_consumer_refuses",
    "Verif.unused_invariant_refuses",
    "Verif.map_error_consumer_again",
    "Verif.bulk_consume_full_slice_refused",
    "Verif.fixed_encode_refused",
    "Verif.fixed_encode_fills",
    "Verif.shared_encoder_refused",
    "Verif.shared_relative_encoder_refused",
    "Verif.Refuses.offered",
    "Verif.consumer_scrambler_after_error",
    "Verif.test_consumer_again",
    "Verif.test_consumer_after_close"
   ],
   "note": "In tests of the crate itself, Invariant panics instead (C25). The documentation forbids these calls; findings 11 and 31 say where they happen or matter."
  },
  {
   "property": "C93",
   "status": "proved",
   "theorems": [
    "Verif.network_exact",
    "Verif.network_allowed",
    "Verif.network_limit_not_exact"
   ],
   "note": "Exactness for networks without Limit below a merge; network_limit_not_exact shows that it fails otherwise, and network_allowed is the direction that holds for all networks."
  },
  {
   "property": "C94",
   "status": "proved",
   "theorems": [
    "Verif.stack_canEmit",
    "Verif.Shape.Equiv.stack",
    "Verif.map_item_map_item",
    "Verif.map_final_map_final",
    "Verif.limit_limit",
    "Verif.limit_map_item",
    "Verif.Shape.Equiv.merge",
    "Verif.merge_comm",
    "Verif.merge_assoc",
    "Verif.map_item_merge",
    "Verif.map_final_merge",
    "Verif.merge_comm_limit_fails",
    "Verif.map_item_merge_fails",
    "Verif.limit_merge_fails"
   ],
   "note": "Equivalence is about what can be emitted for some schedule. The laws of merges need that there is no Limit below; merge_comm_limit_fails, map_item_merge_fails and limit_merge_fails show that the restrictions are needed."
  },
  {
   "property": "C95",
   "status": "proved",
   "theorems": [
    "Verif.Async.stream_network_plays",
    "Verif.Async.limited_stream_ends",
    "Verif.Async.pipe_at_most_from_stream"
   ],
   "note": "What may be emitted is an upper bound here; C93 gives the exact description for finite sequences at the leaves."
  },
  {
   "property": "C96",
   "status": "proved",
   "theorems": [
    "Verif.Async.decoder_network",
    "Verif.Async.network_encoded",
    "Verif.Async.streams_merged",
    "Verif.Async.streams_merged_file",
    "Verif.Async.FixedInt.encode_law",
    "Verif.Async.FixedInt.decode_law"
   ],
   "note": "Codecs with an empty encoding are excluded, as for C40 and C41."
  },
  {
   "property": "C97",
   "status": "proved",
   "theorems": [
    "Verif.Async.network_timed",
    "Verif.network_exact_timed",
    "Verif.Shape.Built.times",
    "Verif.Shape.Times.built",
    "Verif.Async.merge_prompt_first",
    "Verif.Async.merge_prompt_second",
    "Verif.Async.network_time",
    "Verif.Async.pipe_timed",
    "Verif.Async.pipe_time"
   ],
   "note": ""
  },
  {
   "property": "C98",
   "status": "proved",
   "theorems": [
    "Verif.Grammar.splits",
    "Verif.Grammar.Splits.unique",
    "Verif.encodeAll_prefix_iff",
    "Verif.encodeAll_injective",
    "Verif.decoder_reads",
    "Verif.decoder_total",
    "Verif.recode",
    "Verif.canonic_recode",
    "Verif.recode_slice",
    "Verif.recode_idempotent",
    "Verif.recode_not_copy",
    "Verif.FixedInt.recode",
    "Verif.FixedInt.recode_same"
   ],
   "note": ""
  },
  {
   "property": "C99",
   "status": "proved",
   "theorems": [
    "Verif.bulk_overwrite_full_slice_client",
    "Verif.bulk_consume_full_slice_client",
    "Verif.FixedInt.decode_client",
    "Verif.FixedInt.encode_client",
    "Verif.frame_step",
    "Verif.frame_end",
    "Verif.frame_read",
    "Verif.frames_read",
    "Verif.frame_ending",
    "Verif.frame_cut_off",
    "Verif.frame_write_step",
    "Verif.frame_write_full",
    "Verif.frame_written",
    "Verif.frames_written",
    "Verif.frames_round_trip",
    "Verif.FixedInt.frames_round_trip"
   ],
   "note": "Reading needs that the stream does not fail directly after the frame, or that the codec does not call slurp (the integers do not); frame_ending is stated for the former. This is the known fault of Limit::slurp, see C21."
  },
  {
   "property": "C100",
   "status": "proved",
   "theorems": [
    "Verif.Async.bulk_consume_full_slice_abandoned",
    "Verif.Async.consume_full_slice_abandoned",
    "Verif.Async.overwrite_full_slice_abandoned",
    "Verif.Async.encoder_abandoned",
    "Verif.Async.decoder_abandoned",
    "Verif.Async.decode_abandoned",
    "Verif.Async.decode_after_abandoned",
    "Verif.Async.decode_abandoned_misaligned"
   ],
   "note": "decode_abandoned_misaligned is the witness that a dropped call of a decoder makes the next one yield an integer that was never encoded; the documentation does not promise anything about dropped calls."
  },
  {
   "property": "C101",
   "status": "proved",
   "theorems": [
    "Verif.bulk_overwrite_full_slice_client_end",
    "Verif.FixedInt.decode_client_end",
    "Verif.frame_truncated",
    "Verif.messages_read",
    "Verif.messages_written",
    "Verif.messages_round_trip",
    "Verif.FixedInt.messages_round_trip"
   ],
   "note": "Reading needs that the stream does not fail directly after the messages, or that the codec of the values does not call slurp, as C99."
  },
  {
   "property": "C102",
   "status": "proved",
   "theorems": [
    "Verif.Async.bulk_pipe_left",
    "Verif.Async.bulk_pipe_dropped",
    "Verif.Async.bulk_pipe_resumed",
    "Verif.Async.bulk_pipe_dropped_considering",
    "Verif.Async.pipe_dropped_consuming",
    "Verif.Async.test_producer_drops",
    "Verif.Async.test_producer_drops_consider",
    "Verif.Async.test_consumer_drops",
    "Verif.Async.bulk_pipe_repeats",
    "Verif.Async.bulk_pipe_dropped_closing"
   ],
   "note": "The documentation forbids to use a producer or consumer after a dropped call (lib.rs:33); the states that a dropped call may leave are given by relations, for the test doubles those that the code leaves."
  },
  {
   "property": "C103",
   "status": "proved",
   "theorems": [
    "Verif.Async.limit_drops",
    "Verif.Async.map_final_drops",
    "Verif.Async.map_final_drops_consider",
    "Verif.Async.limit_consider_dropped",
    "Verif.Async.limit_produce_dropped",
    "Verif.Async.map_item_drops",
    "Verif.Async.limit_consume_dropped",
    "Verif.Async.map_item_consume_dropped",
    "Verif.Async.test_consumer_consume_drops",
    "Verif.Async.limit_pipe_dropped",
    "Verif.Async.limit_bulk_consume_dropped",
    "Verif.Async.limit_bulk_pipe_dropped",
    "Verif.Async.bulk_pipe_resumed",
    "Verif.Async.test_producer_item_drops",
    "Verif.Async.test_consumer_slot_drops",
    "Verif.Async.limit_pipe_loses",
    "Verif.Async.limit_bulk_pipe_loses"
   ],
   "note": "The documentation forbids to use a producer or consumer after a dropped call (lib.rs:33)."
  },
  {
   "property": "C104",
   "status": "proved",
   "theorems": [
    "Verif.Async.bulk_consume_full_slice_resumed",
    "Verif.Async.bulk_overwrite_full_slice_resumed",
    "Verif.Async.bulk_pipe_at_most_resumed",
    "Verif.Async.bulk_pipe_at_most_restarted",
    "Verif.Async.bulk_pipe_at_most_dropped_considering",
    "Verif.Async.test_producer_bulk_drops",
    "Verif.Async.bulk_consume_full_slice_repeats",
    "Verif.Async.bulk_overwrite_full_slice_loses",
    "Verif.Async.bulk_pipe_at_most_exceeds",
    "Verif.Async.bulk_pipe_at_most_repeats"
   ],
   "note": "The documentation forbids to use a producer or consumer after a dropped call (lib.rs:33). bulk_pipe_at_most_resumed is about drops while expose_items or bulk_consume is pending; for consider_produced see bulk_pipe_at_most_dropped_considering, for close C110."
  },
  {
   "property": "C105",
   "status": "proved",
   "theorems": [
    "Verif.Async.reader_drops",
    "Verif.Async.reader_bulk_drops",
    "Verif.Async.reader_item_drops",
    "Verif.Async.buf_reader_drops",
    "Verif.Async.buf_reader_bulk_drops",
    "Verif.Async.buf_reader_item_drops",
    "Verif.Async.writer_flush_dropped",
    "Verif.Async.writer_flush_dropped_whole",
    "Verif.Async.writer_flush_again",
    "Verif.Async.writer_left_defers",
    "Verif.Async.writer_consume_dropped",
    "Verif.Async.writer_bulk_consume_dropped",
    "Verif.Async.writer_expose_dropped",
    "Verif.Async.writer_flush_call_dropped",
    "Verif.Async.writer_close_call_dropped",
    "Verif.Async.writer_drops_unbuffered",
    "Verif.Async.writer_drops_whole",
    "Verif.Async.writer_repeats",
    "Verif.Async.writer_close_repeats"
   ],
   "note": "The documentation forbids to use a producer or consumer after a dropped call (lib.rs:33). writer_repeats and writer_close_repeats are concrete cases in which a byte is written twice."
  },
  {
   "property": "C106",
   "status": "proved",
   "theorems": [
    "Verif.Async.producer_scrambler_fill_dropped",
    "Verif.Async.producer_scrambler_drops",
    "Verif.Async.producer_scrambler_item_drops",
    "Verif.Async.producer_scrambler_expose_again",
    "Verif.Async.producer_scrambler_slurp_dropped",
    "Verif.Async.producer_scrambler_repeats",
    "Verif.Async.consumer_scrambler_drain_dropped",
    "Verif.Async.consumer_scrambler_consume_dropped",
    "Verif.Async.consumer_scrambler_expose_dropped",
    "Verif.Async.consumer_scrambler_flush_dropped",
    "Verif.Async.consumer_scrambler_close_dropped",
    "Verif.Async.consumer_scrambler_left_defers",
    "Verif.Async.consumer_scrambler_loses",
    "Verif.Async.consumer_scrambler_close_loses"
   ],
   "note": "The documentation forbids to use a producer or consumer after a dropped call (lib.rs:33). The slurp of the scrambler may be pending in slurp of a wrapped producer that has ended; then nothing is assumed of that. The continued behaviour of the producer scrambler is stated without slurp (as in C27), that of the consumer scrambler for builds without debug_assert (as in C28). producer_scrambler_repeats and consumer_scrambler_loses are concrete cases."
  },
  {
   "property": "C107",
   "status": "proved",
   "theorems": [
    "Verif.Async.invariant_drops",
    "Verif.Async.invariant_drops_consider",
    "Verif.Async.invariant_item_drops",
    "Verif.Async.invariant_slurp_drops",
    "Verif.Async.invariant_slot_drops",
    "Verif.Async.invariant_consumer_drops",
    "Verif.Async.invariant_consume_drops",
    "Verif.Async.invariant_flush_drops",
    "Verif.Async.invariant_producer_inactive",
    "Verif.Async.invariant_consumer_inactive",
    "Verif.Async.invariant_consider_again",
    "Verif.Async.invariant_consume_slots_again",
    "Verif.Async.invariant_close_again",
    "Verif.Async.invariant_pipe_unnoticed"
   ],
   "note": "The documentation of Invariant (producer/invariant.rs:16-23) does not list the rule on dropped calls among those that it checks. invariant_pipe_unnoticed is a concrete case."
  },
  {
   "property": "C108",
   "status": "proved",
   "theorems": [
    "Verif.Async.consume_full_slice_resumed",
    "Verif.Async.overwrite_full_slice_resumed",
    "Verif.Async.pipe_at_most_resumed",
    "Verif.Async.pipe_at_most_dropped_consuming",
    "Verif.Async.consume_full_slice_repeats",
    "Verif.Async.overwrite_full_slice_loses",
    "Verif.Async.pipe_at_most_exceeds",
    "Verif.Async.pipe_at_most_loses"
   ],
   "note": "The documentation forbids to use a producer or consumer after a dropped call (lib.rs:33). The last four theorems are concrete cases. For pipe_at_most dropped while close is pending see C110."
  },
  {
   "property": "C109",
   "status": "proved",
   "theorems": [
    "Verif.Async.encoder_dropped",
    "Verif.Async.encoder_dropped_byte",
    "Verif.Async.decoder_dropped",
    "Verif.Async.decoder_dropped_byte",
    "Verif.Async.encoder_misaligned",
    "Verif.Async.decoder_misaligned",
    "Verif.Async.encoder_dropped_often",
    "Verif.Async.encoder_dropped_byte_often",
    "Verif.Async.decoder_dropped_often"
   ],
   "note": "The documentation forbids to use a producer or consumer after a dropped call (lib.rs:33). encoder_misaligned and decoder_misaligned are concrete cases."
  },
  {
   "property": "C110",
   "status": "proved",
   "theorems": [
    "Verif.Async.pipe_dropped_closing",
    "Verif.Async.pipe_at_most_dropped_closing",
    "Verif.Async.bulk_pipe_closing",
    "Verif.Async.bulk_pipe_at_most_closing",
    "Verif.Async.test_consumer_close_drops",
    "Verif.Async.test_producer_spent",
    "Verif.Async.test_producer_pipe_again",
    "Verif.Async.test_producer_bulk_pipe_again"
   ],
   "note": "The documentation forbids to use a producer or consumer after a dropped call (lib.rs:33)."
  },
  {
   "property": "C111",
   "status": "proved",
   "theorems": [
    "Verif.Async.bulk_consume_full_slice_continued",
    "Verif.Async.bulk_overwrite_full_slice_continued",
    "Verif.Async.bulk_pipe_at_most_continued",
    "Verif.Async.consume_full_slice_continued",
    "Verif.Async.overwrite_full_slice_continued",
    "Verif.Async.pipe_at_most_continued"
   ],
   "note": "The count is not available to callers: it is lost with the future (C104, C108). The documentation forbids to use a producer or consumer after a dropped call (lib.rs:33)."
  }
 ]
}