{"id": "C01", "title": "Fixed queue is a bounded FIFO under every call history", "statement": "For every capacity and every finite sequence of calls that respect the documented invariants (enqueue, dequeue, len, is_empty, expose_slots followed by writing the exposed slots, consider_enqueued, expose_items, consider_dequeued, bulk_enqueue, bulk_dequeue), ufotofu_queues::Fixed never panics and returns exactly what an ideal bounded first-in-first-out list of the same capacity would return.", "quantifier": "all item types, capacities, filler values and all finite call sequences, including any wrap-around position", "why_tests_cant": "Wrap-around state depends on the whole history; tests and fuzzing visit finitely many histories and capacities.", "anchors": ["ufotofu_queues/src/fixed.rs: Fixed::new, enqueue, dequeue, expose_slots, consider_enqueued, expose_items, consider_dequeued", "ufotofu_queues/src/lib.rs: Queue::bulk_enqueue, Queue::bulk_dequeue"]}
{"id": "C02", "title": "Static queue is a bounded FIFO under every call history", "statement": "The same statement as C01 for ufotofu_queues::Static<T, N>, for every N.", "quantifier": "all N, all item types, all finite call sequences", "why_tests_cant": "One monomorphisation per N; only a few values of N can be tested.", "anchors": ["ufotofu_queues/src/static_.rs: Static"]}
{"id": "C03", "title": "Queue exposure is non-empty, contiguous-prefix and two calls always suffice", "statement": "expose_slots returns None exactly when the queue is full and otherwise a non-empty slice; expose_items returns None exactly when the queue is empty and otherwise a non-empty prefix of the contents; bulk_enqueue/bulk_dequeue transfer at least one item whenever that is possible; and at most two maximal bulk_dequeue calls empty any queue (two maximal bulk_enqueue calls fill it).", "quantifier": "all reachable queue states (all capacities, read positions, fill levels) and all buffers", "why_tests_cant": "The claim is about every reachable ring-buffer state.", "anchors": ["ufotofu_queues/src/fixed.rs: readable_slice, writeable_slice", "ufotofu_queues/src/lib.rs: Queue"]}
{"id": "C04", "title": "Queue Debug output shows exactly the contents in order", "statement": "Formatting a queue with Debug never panics and lists exactly the currently enqueued items in the order in which they will be dequeued.", "quantifier": "all reachable queue states including capacity 0 and wrapped data", "why_tests_cant": "The index arithmetic has cases (wrapped, exactly at the end, capacity 0) that depend on history.", "anchors": ["ufotofu_queues/src/fixed.rs: DataDebugger", "ufotofu_queues/src/static_.rs: DataDebugger"]}
{"id": "C05", "title": "Initial filler values of a queue are never observable", "statement": "Two queues created with the same capacity but different temporary filler values return identical results (items, counts, None/Some, lengths of exposed slices) under every same contract-respecting call sequence.", "quantifier": "all pairs of filler values, capacities and call sequences", "why_tests_cant": "Two-run (hyper) property over all histories.", "anchors": ["ufotofu_queues/src/fixed.rs: Fixed::new, new_with_manual_tmps"]}
{"id": "C06", "title": "consume_full_slice consumes exactly a prefix and reports it", "statement": "consume_full_slice(buf) either returns Ok and the consumer has consumed exactly the items of buf in order, or returns an error whose count is exactly the number of leading items of buf that were consumed and whose reason is the consumer's own error for the next item.", "quantifier": "all consumers (any acceptance policy), all slices", "why_tests_cant": "Quantifies over all implementations of the trait.", "anchors": ["ufotofu/src/lib.rs: Consumer::consume_full_slice", "ufotofu/src/errors.rs: ConsumeAtLeastError"]}
{"id": "C07", "title": "bulk_consume_full_slice agrees with consume_full_slice", "statement": "For every lawful bulk consumer, whatever slot sizes it exposes, bulk_consume_full_slice(buf) terminates, delivers the same items in the same order and reports success/failure with the same reason as consume_full_slice(buf); its error count never exceeds the number of items actually consumed and equals it whenever the consumer only rejects at slot-exposure time.", "quantifier": "all lawful bulk consumers, all slices, all slot-size schedules", "why_tests_cant": "Loop over an unbounded number of iterations with an adversarial exposure size at each.", "anchors": ["ufotofu/src/lib.rs: BulkConsumer::bulk_consume, bulk_consume_full_slice"]}
{"id": "C08", "title": "overwrite_full_slice writes exactly the next items and nothing else", "statement": "overwrite_full_slice(buf) overwrites the slice with exactly the next buf.len() items and leaves the producer positioned directly after them; if the producer ends early with a final value or error after k items, the first k slots hold those items, all later slots are unchanged, and the error reports count k and that final value/error.", "quantifier": "all producers (finite or infinite sequences), all slices", "why_tests_cant": "Quantifies over all producer implementations and sequences.", "anchors": ["ufotofu/src/lib.rs: Producer::overwrite_full_slice, produce_item", "ufotofu/src/errors.rs: ProduceAtLeastError"]}
{"id": "C09", "title": "bulk_overwrite_full_slice agrees with overwrite_full_slice", "statement": "For every lawful bulk producer, whatever slice sizes it exposes and whether or not it overrides bulk_produce, bulk_overwrite_full_slice(buf) terminates, fills the same prefix with the same items, and reports the same result and count as overwrite_full_slice(buf), leaving the producer at the same position.", "quantifier": "all lawful bulk producers, all slices, all exposure schedules", "why_tests_cant": "Loop with an adversarial exposure size in each iteration.", "anchors": ["ufotofu/src/lib.rs: BulkProducer::bulk_produce, bulk_overwrite_full_slice"]}
{"id": "C10", "title": "pipe delivers exactly the produced sequence", "statement": "pipe(p, c) returns Ok exactly when p's sequence ends with a final value and c accepts every item and the close; then c has consumed exactly p's items in order followed by close(final), once. If p errors the result is Err(Producer(e)) and c consumed exactly p's items and was not closed; if c refuses an item or the close the result is Err(Consumer(e)) with c having consumed exactly the items before it. If neither ever happens pipe does not return.", "quantifier": "all producers and consumers, finite or infinite sequences", "why_tests_cant": "Quantifies over all implementations and unbounded executions, including non-termination.", "anchors": ["ufotofu/src/lib.rs: pipe"]}
{"id": "C11", "title": "bulk_pipe is indistinguishable from pipe", "statement": "For all lawful bulk producers and bulk consumers, whatever slice and slot sizes they expose, bulk_pipe(p, c) returns the same result as pipe(p, c) and c ends up with the same consumed items and final value; it terminates whenever pipe does.", "quantifier": "all lawful bulk producers/consumers and all exposure-size schedules", "why_tests_cant": "Two-run comparison over unbounded loops with adversarial chunk sizes.", "anchors": ["ufotofu/src/lib.rs: bulk_pipe"]}
{"id": "C12", "title": "pipe_at_most moves at most count items and its return value tells whether the end was reached", "statement": "pipe_at_most(p, c, count) always terminates and never moves more than count items. When it returns Ok(k): k < count holds if and only if p emitted its final value (and c was closed with it), and otherwise exactly the next k = count items of p were consumed by c in order, c is still open, and p is positioned directly after them (nothing lost or duplicated). Errors are attributed as in pipe.", "quantifier": "all producers, consumers and counts, including 0", "why_tests_cant": "Quantifies over all implementations and all counts.", "anchors": ["ufotofu/src/lib.rs: pipe_at_most"]}
{"id": "C13", "title": "bulk_pipe_at_most is indistinguishable from pipe_at_most", "statement": "For all lawful bulk producers and consumers, bulk_pipe_at_most(p, c, count) terminates, returns the same value as pipe_at_most, delivers the same items and final value, and on Ok(count) leaves the producer positioned directly after the delivered items.", "quantifier": "all lawful bulk producers/consumers, counts and exposure schedules", "why_tests_cant": "Adversarial chunk sizes around the limit at every iteration.", "anchors": ["ufotofu/src/lib.rs: bulk_pipe_at_most"]}
{"id": "C14", "title": "Bounded pipes compose", "statement": "If pipe_at_most(p, c, m) returned Ok(m), then continuing with pipe_at_most(p, c, n) returns Ok(k) and the same end state of c exactly when a single pipe_at_most(p, c, m+n) on the original pair returns Ok(m+k); the same holds for bulk_pipe_at_most, and for following up with pipe versus a single pipe.", "quantifier": "all producers, consumers, m, n", "why_tests_cant": "Relational property over pairs of executions.", "anchors": ["ufotofu/src/lib.rs: pipe_at_most, bulk_pipe_at_most, pipe"]}
{"id": "C15", "title": "Mixing bulk and item-wise calls never loses, duplicates or reorders items", "statement": "For every lawful bulk producer and every contract-respecting interleaving of produce, slurp, expose_items, consider_produced and bulk_produce, the concatenation of everything handed out (items returned by produce, considered prefixes, buffer contents of bulk_produce) is a prefix of the one sequence that repeated produce calls would give; dually for bulk consumers and consume, flush, expose_slots/consume_slots, bulk_consume.", "quantifier": "all lawful producers/consumers and all finite interleavings of calls", "why_tests_cant": "The set of interleavings is infinite.", "anchors": ["ufotofu/src/lib.rs: Producer, BufferedProducer, BulkProducer, Consumer, BufferedConsumer, BulkConsumer"]}
{"id": "C16", "title": "FromSlice and FromBoxedSlice emit exactly their slice", "statement": "producer::FromSlice and producer::FromBoxedSlice never panic under contract-respecting use and emit exactly the items of their slice in order followed by (), under every mix of item-wise and bulk calls; at every moment produced_so_far() ++ not_yet_produced() (and the offset accessors) is the original slice.", "quantifier": "all slices and all contract-respecting call sequences", "why_tests_cant": "All interleavings and all slices.", "anchors": ["ufotofu/src/producer/from_slice.rs: FromSlice", "ufotofu/src/producer/from_boxed_slice.rs: FromBoxedSlice"]}
{"id": "C17", "title": "IntoVec collects exactly the consumed items", "statement": "consumer::IntoVec, whether created empty or from an existing vector, never fails and never panics under contract-respecting use; at every moment its as_ref()/into_vec() is the initial vector followed by exactly the items consumed so far (by consume, bulk_consume or consume_slots, in order), with no filler value ever included; every expose_slots call returns a non-empty slice.", "quantifier": "all initial vectors, items and call sequences", "why_tests_cant": "Growth policy and filler values depend on the history.", "anchors": ["ufotofu/src/consumer/into_vec.rs: IntoVec"]}
{"id": "C18", "title": "Empty producer ends immediately", "statement": "producer::Empty returns the final value on the first produce/expose_items call and slurp has no effect before it.", "quantifier": "all call sequences", "why_tests_cant": "All call sequences.", "anchors": ["ufotofu/src/producer/empty.rs: Empty"]}
{"id": "C19", "title": "Piping a slice into a vector copies it", "statement": "Piping FromSlice(xs) into IntoVec with pipe or bulk_pipe returns Ok and into_vec() is xs; with pipe_at_most/bulk_pipe_at_most(n) it is the first n items of xs and the return value is min(n, xs.len()).", "quantifier": "all slices xs and all n", "why_tests_cant": "End-to-end statement over all data.", "anchors": ["ufotofu/src/lib.rs: pipe, bulk_pipe, pipe_at_most, bulk_pipe_at_most", "ufotofu/src/producer/from_slice.rs", "ufotofu/src/consumer/into_vec.rs"]}
{"id": "C20", "title": "producer::Limit truncates the sequence", "statement": "producer::Limit(p, n) emits exactly the first n items of p and then the final value None; if p ends earlier its final value f is emitted as Some(f) (errors unchanged); at most n items are ever taken from p. Holds for every mix of item-wise and bulk calls.", "quantifier": "all lawful producers, limits and call sequences", "why_tests_cant": "Quantifies over all wrapped producers and call interleavings.", "anchors": ["ufotofu/src/producer/limit.rs: Limit"]}
{"id": "C21", "title": "consumer::Limit accepts exactly n items", "statement": "consumer::Limit(c, n) forwards the first n items to c unchanged, answers any further item with the error None without touching c, wraps errors of c as Some(e), and still forwards close and flush; expose_slots never exposes more slots than remain. Holds for every mix of item-wise and bulk calls.", "quantifier": "all lawful consumers, limits and call sequences", "why_tests_cant": "Quantifies over all wrapped consumers and call interleavings.", "anchors": ["ufotofu/src/consumer/limit.rs: Limit"]}
{"id": "C22", "title": "MapItem adaptors apply the function pointwise", "statement": "producer::MapItem(p, f) emits f of every item of p in order with final value and error unchanged; consumer::MapItem(c, f) makes c consume f of every item in order, with close/flush and errors unchanged; f is applied exactly once per item, in order (so stateful functions are handled).", "quantifier": "all producers/consumers, all (stateful) functions, all sequences", "why_tests_cant": "Quantifies over functions and sequences.", "anchors": ["ufotofu/src/producer/map_item.rs: MapItem", "ufotofu/src/consumer/map_item.rs: MapItem"]}
{"id": "C23", "title": "MapFinal adaptors change only the final value", "statement": "producer::MapFinal(p, f) emits p's items and errors unchanged and f(final) as the final value; consumer::MapFinal(c, f) passes items unchanged and closes c with f(final). Neither panics under contract-respecting use, in any mix of item-wise and bulk calls.", "quantifier": "all lawful producers/consumers, functions and call sequences", "why_tests_cant": "Quantifies over all wrapped values and interleavings.", "anchors": ["ufotofu/src/producer/map_final.rs: MapFinal", "ufotofu/src/consumer/map_final.rs: MapFinal"]}
{"id": "C24", "title": "MapError adaptors change only the error", "statement": "producer::MapError(p, f) / consumer::MapError(c, f) behave exactly like the wrapped value except that an emitted error e becomes f(e); in particular they do not panic under contract-respecting use.", "quantifier": "all lawful producers/consumers, functions and call sequences", "why_tests_cant": "Quantifies over all wrapped values and interleavings.", "anchors": ["ufotofu/src/producer/map_error.rs: MapError", "ufotofu/src/consumer/map_error.rs: MapError"]}
{"id": "C25", "title": "producer Invariant wrapper: transparent for correct clients, panics for incorrect ones", "statement": "In test/dev builds, a producer wrapped in the Invariant checker behaves identically to the unwrapped producer for every client that respects the trait invariants, and panics on every call made after a final value or an error was returned, and on every consider_produced with more items than were exposed.", "quantifier": "all lawful producers and all call sequences, correct and incorrect", "why_tests_cant": "All histories, including ill-formed ones.", "anchors": ["ufotofu/src/producer/invariant.rs: Invariant", "ufotofu/src/common_macros.rs", "ufotofu/src/producer/invariant_noop.rs"]}
{"id": "C26", "title": "consumer Invariant wrapper: transparent for correct clients, panics for incorrect ones", "statement": "In test/dev builds, a consumer wrapped in the Invariant checker behaves identically to the unwrapped consumer for every client that respects the trait invariants, and panics on every call made after close or after an error was returned, and on every consume_slots with more slots than were exposed.", "quantifier": "all lawful consumers and all call sequences, correct and incorrect", "why_tests_cant": "All histories, including ill-formed ones.", "anchors": ["ufotofu/src/consumer/invariant.rs: Invariant", "ufotofu/src/consumer/invariant_noop.rs"]}
{"id": "C27", "title": "producer::BulkScrambler does not change the sequence", "statement": "Wrapping a lawful bulk producer in producer::BulkScrambler with any operation pattern and any positive capacity yields a producer that emits exactly the same items, final value or error, under every contract-respecting client call sequence, and it uses the wrapped producer only in contract-respecting ways.", "quantifier": "all wrapped producers, operation patterns, capacities >= 1 and client call sequences", "why_tests_cant": "Product of operation patterns, capacities and interleavings.", "anchors": ["ufotofu/src/producer/bulk_scrambler.rs: BulkScrambler"]}
{"id": "C28", "title": "consumer::BulkScrambler does not change the consumed sequence", "statement": "Wrapping a lawful bulk consumer in consumer::BulkScrambler with any operation pattern and any positive capacity: whenever flush or close returns Ok the wrapped consumer has consumed exactly the items consumed by the scrambler in the same order (and for close, the same final value); at any time it has consumed a prefix of them. It never panics and uses the wrapped consumer only in contract-respecting ways.", "quantifier": "all wrapped consumers, operation patterns, capacities >= 1 and client call sequences", "why_tests_cant": "Product of operation patterns, capacities and interleavings.", "anchors": ["ufotofu/src/consumer/bulk_scrambler.rs: BulkScrambler"]}
{"id": "C29", "title": "Scramblers always make progress", "statement": "For every operation list handed to either BulkScrambler (including empty lists and lists consisting only of Slurp/Flush), every method call of the scrambler performs finitely many operations on the wrapped value, provided the wrapped value's own methods return.", "quantifier": "all operation lists, capacities >= 1, wrapped values and buffered contents", "why_tests_cant": "Liveness over an unbounded number of patterns.", "anchors": ["ufotofu/src/producer/bulk_scrambler.rs: do_operations_make_progress, fill_queue", "ufotofu/src/consumer/bulk_scrambler.rs: do_operations_make_progress, perform_operation"]}
{"id": "C30", "title": "TestProducer plays its script", "statement": "A TestProducer built from items and last emits exactly the items in order and then the given final value or error, under every exposed-sizes pattern, yield pattern and mix of item-wise and bulk calls; the k-th expose_items call that returns items exposes exactly min(remaining, size_k) items, where size_k cycles through the configured sizes.", "quantifier": "all scripts, size patterns, yield patterns and call sequences", "why_tests_cant": "All configurations times all interleavings.", "anchors": ["ufotofu/src/producer/test_producer.rs: TestProducer_, TestProducerBuilder"]}
{"id": "C31", "title": "TestConsumer accepts exactly the configured number of items", "statement": "A TestConsumer configured with error e after n consumptions accepts exactly n items, records exactly those items (consumed()) and the final value passed to a successful close, and answers every method call made once n items have been consumed with e; under every slot-size pattern, yield pattern and mix of item-wise and bulk calls; expose_slots always returns between 1 and the remaining number of items, and at most the configured size.", "quantifier": "all configurations and call sequences", "why_tests_cant": "All configurations times all interleavings.", "anchors": ["ufotofu/src/consumer/test_consumer.rs: TestConsumer_, TestConsumerBuilder"]}
{"id": "C32", "title": "Configured yield patterns never block a test double forever", "statement": "For every yield pattern (including empty and all-true patterns) every call of a required method of a TestProducer/TestConsumer suspends at most as many times as the pattern is long before completing, following the pattern cyclically; bulk_produce and bulk_consume (the default implementations, which call two of these methods) suspend at most twice as often.", "quantifier": "all boolean patterns and all positions in the cycle", "why_tests_cant": "All patterns and positions.", "anchors": ["ufotofu/src/test_yielder.rs: TestYielder"]}
{"id": "C33", "title": "Merge interleaves both producers without loss", "statement": "Under every schedule in which the wrapped producers become ready, the items emitted by producer::Merge(p1, p2) form an order-preserving interleaving of the items of p1 and p2: no item is lost, duplicated or reordered within its source.", "quantifier": "all producers, all readiness schedules", "why_tests_cant": "All schedules.", "anchors": ["ufotofu/src/producer/merge.rs: Merge"]}
{"id": "C34", "title": "Merge ends with the later final value", "statement": "Merge(p1, p2) emits a final value only after both producers have emitted theirs, and it is the final value of the producer that finished last; the first final value is dropped. It never panics before its own end. An error of either producer is forwarded as soon as it is received, after which no further items are emitted.", "quantifier": "all producers, all readiness schedules", "why_tests_cant": "All schedules.", "anchors": ["ufotofu/src/producer/merge.rs: Merge::produce"]}
{"id": "C35", "title": "Reader adaptors produce exactly the bytes of the reader", "statement": "ReaderToBulkProducer and BufReaderToBulkProducer emit exactly the byte stream of the wrapped reader, in order, whatever amounts the reader returns per read and for every queue capacity >= 1, under every mix of item-wise and bulk calls with non-empty buffers; end of stream becomes the final value (), reader errors (other than UnexpectedEof) are passed on.", "quantifier": "all readers (all chunkings of all byte streams), capacities and call sequences", "why_tests_cant": "Short reads are adversarial; every chunking must be covered.", "anchors": ["ufotofu/src/producer/reader.rs: ReaderToBulkProducer, BufReaderToBulkProducer"]}
{"id": "C36", "title": "Writer adaptor writes exactly the consumed bytes", "statement": "WriterToBulkConsumer writes the consumed bytes to the wrapped writer in order without loss or duplication, however many bytes each write accepts, for every queue capacity >= 1: at every time the written bytes are a prefix of the consumed bytes, and when consume, flush or close returns Ok they are all of them.", "quantifier": "all writers (all partial-write behaviours), capacities and call sequences", "why_tests_cant": "Partial writes are adversarial.", "anchors": ["ufotofu/src/consumer/writer.rs: WriterToBulkConsumer"]}
{"id": "C37", "title": "Endian codecs round-trip", "statement": "For each of U8, U16, U32, U64, I8..I64 in both endiannesses, decoding the encoding of any value (followed by arbitrary further bytes) yields that value and leaves the producer directly after the encoding, for every way the bytes are chunked by the bulk producer; the encoding length equals len_of_encoding.", "quantifier": "all integer values of every width, all trailing data, all bulk producers", "why_tests_cant": "64-bit value spaces and all chunkings.", "anchors": ["ufotofu_codec_endian/src/lib.rs: macros and types"]}
{"id": "C38", "title": "Endian decoding is total, injective and canonic", "statement": "Any input with at least N bytes decodes successfully, decode and decode_canonic agree, and re-encoding the decoded value gives back exactly the N consumed bytes (so every N-byte string is the encoding of exactly one value); any shorter input that ends with a final value yields UnexpectedEndOfInput carrying that final value; producer errors are passed through.", "quantifier": "all byte streams and producers, all widths", "why_tests_cant": "All byte strings.", "anchors": ["ufotofu_codec_endian/src/lib.rs: Decodable, DecodableCanonic impls"]}
{"id": "C39", "title": "Encoding to a failing consumer writes a prefix of the encoding", "statement": "If the consumer refuses to take all bytes, an endian encode call returns the consumer's error and the consumer has received a prefix of the encoding; otherwise it returns Ok and the consumer received exactly the encoding.", "quantifier": "all values, all consumers", "why_tests_cant": "All failure points.", "anchors": ["ufotofu_codec_endian/src/lib.rs: Encodable impls", "ufotofu/src/lib.rs: bulk_consume_full_slice"]}
{"id": "C40", "title": "Encoder and Decoder adaptors are inverse", "statement": "For every codec whose decode inverts encode, consuming a list of values with an Encoder and decoding the resulting bytes with a Decoder (followed by a final value) emits exactly the same list of values and then the final value, for every chunking of the bytes.", "quantifier": "all lawful codecs (instantiated with every endian codec), all lists of values, all chunkings", "why_tests_cant": "Unbounded lists and chunkings.", "anchors": ["ufotofu_codec/src/adaptors/encoder.rs: Encoder", "ufotofu_codec/src/adaptors/decoder.rs: Decoder, CanonicDecoder"]}
{"id": "C41", "title": "Decoder distinguishes clean ends from truncation", "statement": "A Decoder emits its final value exactly when the inner producer ends at a value boundary; if the inner producer ends inside the encoding of a value it emits UnexpectedEndOfInput with that final value instead; inner errors are reported as producer errors. It never consumes bytes past the values it has emitted.", "quantifier": "all byte streams, all truncation points", "why_tests_cant": "All truncation points.", "anchors": ["ufotofu_codec/src/adaptors/decoder.rs: Decoder::produce", "ufotofu_codec/src/decode_error.rs: DecodeError"]}
{"id": "C42", "title": "Relative Encoder/Decoder adaptors are inverse when relative values agree", "statement": "RelativeEncoder and RelativeDecoder that use the same sequence of relative-to values (including changes through set_relative_to between values) round-trip every list of values; the absolute codecs used relative to () behave identically to Encoder/Decoder.", "quantifier": "all lawful relative codecs, lists of values and sequences of relative-to values", "why_tests_cant": "Unbounded histories of set_relative_to calls.", "anchors": ["ufotofu_codec/src/adaptors/relative_encoder.rs", "ufotofu_codec/src/adaptors/relative_decoder.rs", "ufotofu_codec/src/relative_encode.rs", "ufotofu_codec/src/relative_decode.rs"]}
{"id": "C43", "title": "Shared encoders never interleave bytes of different values", "statement": "When several SharedEncoders use one mutex-protected consumer concurrently, then under every schedule the bytes received by the consumer are a concatenation of complete encodings, one per completed consume call, in an order that respects each encoder's own call order; closing a SharedEncoder does not close the shared consumer.", "quantifier": "all numbers of encoders, values and schedules", "why_tests_cant": "All schedules.", "anchors": ["ufotofu_codec/src/adaptors/shared_encoder.rs: SharedEncoder", "ufotofu_codec/src/adaptors/shared_relative_encoder.rs"]}
{"id": "C44", "title": "Shared decoders partition the decoded values", "statement": "When several SharedDecoders use one mutex-protected byte producer concurrently, then under every schedule every encoded value is decoded intact and handed to exactly one decoder, in stream order, and no byte is skipped.", "quantifier": "all numbers of decoders, streams and schedules", "why_tests_cant": "All schedules.", "anchors": ["ufotofu_codec/src/adaptors/shared_decoder.rs: SharedDecoder", "ufotofu_codec/src/adaptors/shared_relative_decoder.rs"]}
{"id": "C45", "title": "encode_into_vec, encode_into_boxed_slice and decode_from_slice agree with the codec", "statement": "encode_into_vec(x) is exactly the encoding of x; for codecs that report their encoding length correctly encode_into_boxed_slice(x) has the same contents (and never panics); decode_from_slice of a slice starting with an encoding of x returns x, and of an empty/truncated slice reports UnexpectedEndOfInput.", "quantifier": "all lawful codecs and values", "why_tests_cant": "All values.", "anchors": ["ufotofu_codec/src/encode.rs: Encodable::encode_into_vec, EncodableKnownSize::encode_into_boxed_slice", "ufotofu_codec/src/decode.rs: Decodable::decode_from_slice"]}
{"id": "C46", "title": "DecodeError and Blame conversions preserve information", "statement": "The conversions between error types keep the category and payload: a ProduceAtLeastError with a final value becomes UnexpectedEndOfInput of that value, one with an error becomes Producer of it; map_other changes only the Other case; the integer conversion helpers return the same number or an error, never a different number.", "quantifier": "all values", "why_tests_cant": "64-bit ranges.", "anchors": ["ufotofu_codec/src/decode_error.rs"]}
{"id": "C47", "title": "Empty buffers do not end a stream", "statement": "Calling bulk_produce with an empty buffer on a producer that still has items, or bulk_consume with an empty buffer on a consumer that still accepts items, transfers nothing and does not report the end of the stream or an error; later calls are unaffected.", "quantifier": "all bulk producers and consumers of the crate", "why_tests_cant": "Edge case across all implementations and states.", "anchors": ["ufotofu/src/lib.rs: bulk_produce, bulk_consume", "ufotofu/src/producer/reader.rs: bulk_produce", "ufotofu/src/consumer/writer.rs: bulk_consume"]}
{"id": "C48", "title": "Adaptor stacks compose", "statement": "Any nesting of producer adaptors Limit, MapFinal, Invariant (and of the consumer adaptors) around a lawful bulk producer/consumer is again lawful, and its sequence is the composition of the individual sequence transformations; so all pipe guarantees apply to arbitrary adaptor stacks.", "quantifier": "all nesting depths and orders", "why_tests_cant": "Unbounded nesting.", "anchors": ["ufotofu/src/producer/limit.rs", "ufotofu/src/producer/map_final.rs", "ufotofu/src/producer/invariant.rs", "ufotofu/src/consumer/limit.rs", "ufotofu/src/consumer/map_final.rs", "ufotofu/src/consumer/invariant.rs"]}
{"id": "C49", "title": "Shared adaptors respect the contract of the shared consumer or producer", "statement": "If every task uses its own SharedEncoder (SharedDecoder) according to the contract of consumers (producers), then the methods of the shared consumer (producer) are called according to its contract: no calls after an error or after the final value.", "quantifier": "all numbers of tasks and schedules", "why_tests_cant": "All schedules; only visible with an inner value that checks its contract.", "anchors": ["ufotofu_codec/src/adaptors/shared_encoder.rs: SharedEncoder", "ufotofu_codec/src/adaptors/shared_decoder.rs: SharedDecoder", "ufotofu/src/lib.rs: Consumer, Producer"]}
{"id": "C50", "title": "Dropping a pending call of one shared encoder does not affect the values of the others", "statement": "If the future of a call of a SharedEncoder is dropped before it has completed, and this SharedEncoder is not used any more (which the contract allows), then the bytes received by the shared consumer are still a concatenation of complete encodings.", "quantifier": "all points of suspension and schedules", "why_tests_cant": "All suspension points.", "anchors": ["ufotofu_codec/src/adaptors/shared_encoder.rs: SharedEncoder", "ufotofu/src/lib.rs:33"]}
{"id": "C51", "title": "Default bulk methods are lawful", "statement": "For every bulk producer (consumer) whose required methods are lawful, the provided default implementation of bulk_produce (bulk_consume) is lawful too: it yields the next items of the sequence (adds the given items to those consumed), reports exactly the number of items it moved, moves as many as the exposed slice and the buffer permit, and leaves the rest of the buffer unchanged.", "quantifier": "all producers and consumers, buffers and states", "why_tests_cant": "Quantifies over all implementations of the traits.", "anchors": ["ufotofu/src/lib.rs:469 BulkProducer::bulk_produce", "ufotofu/src/lib.rs:237 BulkConsumer::bulk_consume"]}
{"id": "C52", "title": "The codec property tests raise no false alarms", "statement": "If a codec obeys the contracts of the codec traits (encoding emits exactly the encoding of the value, decoding reads exactly one encoding, decoding inverts encoding; for canonic codecs: encoding is unique; for known-size codecs: len_of_encoding is the length), then every assertion of the proptest module and every body of the fuzz_absolute_* and fuzz_relative_* macros terminates without a panic.", "quantifier": "all lawful codecs, values, byte strings, exposed-slice sizes, capacities and yield patterns of the test doubles", "why_tests_cant": "Quantifies over all codecs and all configurations of the test doubles.", "anchors": ["ufotofu_codec/src/proptest/absolute.rs", "ufotofu_codec/src/proptest/relative.rs", "ufotofu_codec/src/proptest.rs"]}
{"id": "C53", "title": "The codec property tests detect every violation of the contract", "statement": "If the assertions of the proptest module are silent on all inputs, then the codec obeys the contracts of the codec traits: encodings do not depend on the consumer, distinct values have prefix-free encodings, decoding does not depend on the producer, reads no more than one encoding and inverts encoding; canonic decoding accepts exactly the encodings made by encode; known sizes are exact.", "quantifier": "all codecs, lawful or not", "why_tests_cant": "Quantifies over all codecs.", "anchors": ["ufotofu_codec/src/proptest/absolute.rs", "ufotofu_codec/src/proptest/relative.rs", "ufotofu_codec/src/proptest.rs"]}
{"id": "C54", "title": "Error values tell what happened", "statement": "The Display texts of PipeError, ConsumeAtLeastError, ProduceAtLeastError, DecodeError and Blame distinguish the categories; those of the AtLeast errors also determine the count, those of DecodeError the payload. Error::source is the payload if that is an error, none for final values; into_reason discards only the count.", "quantifier": "all values of the error types, all payloads and counts", "why_tests_cant": "Unbounded counts and arbitrary payload types.", "anchors": ["ufotofu/src/errors.rs", "ufotofu_codec/src/decode_error.rs:69-163"]}
{"id": "C56", "title": "Where the piping functions leave the producer", "statement": "When the consumer refuses an item, pipe and pipe_at_most have taken that item out of the producer (it is lost); bulk_pipe and bulk_pipe_at_most have not, and everything not consumed is still to be emitted. If bulk_consume of the consumer fails only when not even the first item is accepted, then the producer continues exactly with the refused item; otherwise it may emit items again that were already consumed.", "quantifier": "all lawful producers and consumers, all items and errors", "why_tests_cant": "Depends on how consumers split bulk operations; quantifies over all lawful implementations.", "anchors": ["ufotofu/src/lib.rs:498-705"]}
{"id": "C55", "title": "The fuzz targets find nothing", "statement": "On every input, every fuzz target of the repository ends without a failed assertion, whatever bytes the fuzzer generates; with one exception: with debug assertions enabled, the targets that put a consumer into a BulkScrambler fail on inputs longer than 2048 items (the buffer of the scrambler), if the wrapped consumer accepts at least 2048 of them, because of the inverted debug_assert. The target for merging passes for all fair schedules.", "quantifier": "all fuzz inputs: all test producers and consumers, operation lists, slice lengths, queue capacities, schedules, and (for the compat targets) all lawful readers and writers", "why_tests_cant": "A fuzzer samples inputs; the claim is about all of them, and tells which bugs the targets can and cannot find.", "anchors": ["fuzz/fuzz_targets/ufotofu", "fuzz/fuzz_targets/queues"]}
{"id": "C57", "title": "Piping and full slices into consumers that delay their effects", "statement": "For consumers that may keep items back and report errors later (writers with a buffer, scramblers): if pipe or bulk_pipe succeeds, exactly the items of the producer and then its final value have really been consumed and nothing is held back; if it fails, a prefix of the items has been, no final value, and the error is one the consumer has a reason for or the producer's own (then the consumer can be used on). pipe_at_most and bulk_pipe_at_most always return and never offer more than count items; consume_full_slice and bulk_consume_full_slice pass the whole slice or report how many items the earlier calls took. If the consumer has no reason to fail, pipe and bulk_pipe both succeed. Copying from any reader to any writer writes exactly the bytes of the reader.", "quantifier": "all lawful producers, all lawful delaying consumers, all kinds of errors they may report, all readers, writers and queues", "why_tests_cant": "The moment at which a delayed error shows up depends on buffer sizes and on how the consumer splits its work; the claim is about all of them, including endless producers.", "anchors": ["ufotofu/src/lib.rs:136-157", "ufotofu/src/lib.rs:269-293", "ufotofu/src/lib.rs:541-705"]}
{"id": "C58", "title": "The queues with machine arithmetic", "statement": "With usize sums and differences as a machine computes them (overflow panics if overflow checks are on, and wraps around otherwise), Fixed and Static of a positive capacity act as ideal bounded first-in-first-out lists for every history of calls that respects the documented invariants exactly if there is room for twice the capacity in a usize (2 * capacity <= usize::MAX + 1). So they do for all item types that take up memory. For zero-sized items and larger capacities a history of nine allowed calls panics, with and without overflow checks.", "quantifier": "all word sizes, with and without overflow checks, all capacities, all item types, all histories of calls", "why_tests_cant": "Overflow needs capacities near half of the address space; no test can fill such a queue of real items, and tests with zero-sized items were not thought of.", "anchors": ["ufotofu_queues/src/fixed.rs:103-136", "ufotofu_queues/src/fixed.rs:247-294", "ufotofu_queues/src/static_.rs:48-74", "ufotofu_queues/src/static_.rs:84-131"]}
{"id": "C59", "title": "The generators of test vectors", "statement": "For lawful codecs and every corpus whose files the Arbitrary implementation accepts (for any other corpus the functions panic), each of the five generate_test_vectors functions writes, for corpus file number i, exactly the files of one test vector numbered i and changes no other file. After a run with an empty output directory: each input is in exactly one of yay and nay; what is in yay can be decoded and dbg describes the value; what is in nay cannot be decoded and nay_reason says why; reencoded holds the encoding of the value and (absolute) decodes to the same value; canonic inputs in yay start with the encoding of the value; the relative variants also store what the value is relative to. The fuzz targets that build the corpora never panic.", "quantifier": "all lawful codecs, all corpora whose files are accepted, all Arbitrary and Debug implementations, all earlier contents of the output directory", "why_tests_cant": "There are no tests for the generators; whether every vector is right depends on all codecs and all corpora.", "anchors": ["ufotofu_codec/src/test_vector_generation.rs:25-94", "ufotofu_codec/src/test_vector_generation.rs:107-171", "ufotofu_codec/src/test_vector_generation.rs:184-279", "ufotofu_codec/src/test_vector_generation.rs:282-372", "ufotofu_codec/src/test_vector_generation.rs:385-513"]}
{"id": "C60", "title": "Test doubles from random bytes", "statement": "The Arbitrary implementations of TestProducer, TestConsumer and TestYielder create from random bytes exactly the test doubles whose parts are created from the bytes in sequence; they never fail unless a part does; and whatever is created is lawful: producers emit the created items and then the created last value, consumers accept the created number of items and then fail with the created error, yielders always stop yielding. Their size hints are right: unless the input is too short, creating a value takes at least the lower bound and at most the upper bound of bytes, if that holds for the parts.", "quantifier": "all byte strings, all Arbitrary implementations of the parts, all depths, both kinds of builds", "why_tests_cant": "The implementations are what tests and fuzz targets rely on; they are not tested themselves, and the hints only change which inputs a fuzzer tries.", "anchors": ["ufotofu/src/producer/test_producer.rs:134-158", "ufotofu/src/consumer/test_consumer.rs:139-163", "ufotofu/src/test_yielder.rs:42-51"]}
{"id": "C61", "title": "Suspension does not matter", "statement": "However often, and whenever, the futures of producers, consumers, readers and writers are pending, polling the future of any method or function of the crates to completion gives the same result and the same final state as executing the calls one after the other without any suspension. In particular the piping functions neither see nor change how often the two sides are pending.", "quantifier": "all producers, consumers, readers and writers whose futures are arbitrary state machines polled step by step, including those that panic or are pending for ever; all states", "why_tests_cant": "Tests run a few fixed yield patterns, mostly none; the set of suspension patterns is infinite, and a suspension at the wrong place is lost or repeated work.", "anchors": ["ufotofu/src/lib.rs: pipe, bulk_pipe, pipe_at_most, bulk_pipe_at_most", "ufotofu/src/producer.rs", "ufotofu/src/consumer.rs", "ufotofu/src/producer/", "ufotofu/src/consumer/", "ufotofu/src/test_yielder.rs", "ufotofu_codec/src/adaptors/", "ufotofu_codec_endian/src/lib.rs"]}
{"id": "C62", "title": "Merge and the shared codec adaptors, poll by poll", "statement": "Merge, with its two futures in progress polled left first within each poll, behaves as under some schedule of readiness: all answers are those of an interleaving of both sequences, every call returns if the calls of the producers do, it is pending only if every future in progress is, and a pending future of produce can be dropped without loss. The shared encoders and decoders, whose tasks are polled in any order and suspended wherever a producer or consumer is pending, satisfy linearizability, freedom from deadlock, no mixing of bytes (encoders) and partition of values (decoders).", "quantifier": "all producers, consumers and codecs whose futures are arbitrary state machines; all numbers of tasks; all interleavings of polls, including tasks that are dropped", "why_tests_cant": "Interleavings of polls of several futures are unboundedly many; tests try a few yield patterns with two tasks.", "anchors": ["ufotofu/src/producer/merge.rs:9-86", "ufotofu_codec/src/adaptors/shared_encoder.rs", "ufotofu_codec/src/adaptors/shared_decoder.rs", "ufotofu_codec/src/adaptors/shared_relative_encoder.rs", "ufotofu_codec/src/adaptors/shared_relative_decoder.rs"]}
{"id": "C63", "title": "Nothing is pending of its own accord", "statement": "The futures of the adaptors, scramblers, reader and writer adaptors, codec adaptors and endian codecs, of the provided methods of the traits and of the piping functions are pending exactly as often as the futures of the producers, consumers, readers and writers they wrap, added up: none adds a suspension, swallows one, or polls a wrapped future again after it was ready. The methods of TestProducer and TestConsumer are pending exactly as often as their yielder says.", "quantifier": "all wrapped producers, consumers, readers, writers whose futures are arbitrary state machines; all states and arguments; all completed calls", "why_tests_cant": "Tests count no polls at all; an additional suspension does not change any result.", "anchors": ["ufotofu/src/lib.rs:541-705", "ufotofu/src/producer/", "ufotofu/src/consumer/", "ufotofu/src/test_yielder.rs:37-71", "ufotofu_codec/src/adaptors/", "ufotofu_codec_endian/src/lib.rs"]}
{"id": "C64", "title": "Sums of usize values do not overflow outside the queues either", "statement": "Wherever the crate computes with usize (cursors of FromSlice and FromBoxedSlice, the counter and the growing vector of IntoVec, the remaining amounts of Limit, the exposed amounts of Invariant, the counters and indices of TestProducer, TestConsumer and TestYielder, the index and queue of the scramblers, the queues of the IO adaptors, the counters of bulk_consume_full_slice, bulk_overwrite_full_slice and the pipe functions), no sum, product or difference that an allowed call computes exceeds usize::MAX or falls below zero, given that the slices, patterns and sizes involved fit in memory and that the vectors grow to at most half of usize::MAX slots; so every allowed call does the same whether overflow panics or wraps around. An IntoVec or TestConsumer of items that take up no memory can exceed that: after usize::MAX items IntoVec panics, or exposes no slots.", "quantifier": "all word sizes, with and without overflow checks; all items, limits, sizes, patterns, operations, capacities within memory; all wrapped producers and consumers; all histories of allowed calls", "why_tests_cant": "Overflow needs states near usize::MAX, which no test reaches; that no allowed history gets there requires an invariant over all histories.", "anchors": ["ufotofu/src/producer/from_slice.rs:155-195", "ufotofu/src/producer/from_boxed_slice.rs:195-235", "ufotofu/src/consumer/into_vec.rs:150-206", "ufotofu/src/producer/limit.rs:50-95", "ufotofu/src/consumer/limit.rs:40-85", "ufotofu/src/producer/invariant.rs:135-145", "ufotofu/src/consumer/invariant.rs:140-150", "ufotofu/src/test_yielder.rs:15-70", "ufotofu/src/producer/test_producer.rs:330-420", "ufotofu/src/consumer/test_consumer.rs:350-445", "ufotofu/src/producer/bulk_scrambler.rs:138-140", "ufotofu/src/consumer/bulk_scrambler.rs:135-137", "ufotofu/src/lib.rs:265-290", "ufotofu/src/lib.rs:500-530", "ufotofu/src/lib.rs:600-705"]}
{"id": "C65", "title": "No lost wake-ups", "statement": "A future returned by the crate that is pending waits for futures that it wraps and that it has polled, with the waker it was given, in that very poll: as long as those would stay pending if polled again, polling it again has no effect whatsoever. In particular a pending Merge has polled both of its producers. So an executor that polls only when a waker has been called never misses that a future of the crate could go on. The only future that is pending of its own accord is that of TestYielder, which calls the waker.", "quantifier": "all producers, consumers, readers, writers and codecs whose futures, once pending, do not go on; all states of all futures", "why_tests_cant": "Test executors poll eagerly, and test producers wake themselves, so a lost wake-up would go unnoticed; whether a future can go on without its waker being called has to be asked of every state in which it can be pending.", "anchors": ["ufotofu/src/producer/merge.rs:47-85", "ufotofu/src/test_yielder.rs:61-71", "ufotofu/src/lib.rs:541-705", "ufotofu/src/producer/bulk_scrambler.rs", "ufotofu/src/consumer/bulk_scrambler.rs", "ufotofu_codec/src/adaptors/shared_encoder.rs", "ufotofu_codec/src/adaptors/shared_decoder.rs"]}
{"id": "C66", "title": "Dropping a pending call of one shared decoder does not affect the values of the others", "statement": "If the future of a call of a SharedDecoder is dropped before it has completed, and this SharedDecoder is not used any more (which the contract allows), then the other decoders still get intact values of the stream, in stream order.", "quantifier": "all points of suspension and schedules", "why_tests_cant": "All suspension points.", "anchors": ["ufotofu_codec/src/adaptors/shared_decoder.rs: SharedDecoder", "ufotofu/src/lib.rs:33"]}
{"id": "C67", "title": "Invariant wrappers from random bytes", "statement": "A producer or consumer wrapped in an Invariant that is created by the derived Arbitrary implementation behaves as if the wrapped value had been created from the same bytes and wrapped with Invariant::new: it emits or consumes the same sequences, panics only when a caller violates the contract, and panics then. The size hints are right if those of the parts are.", "quantifier": "all byte strings, all Arbitrary implementations of the wrapped types, both variants of Invariant (with and without checks)", "why_tests_cant": "Derived code without tests; whether it is right depends on all byte strings.", "anchors": ["ufotofu/src/producer/invariant.rs:26-35", "ufotofu/src/consumer/invariant.rs:22-31", "ufotofu/src/producer/invariant_noop.rs:26-29", "ufotofu/src/consumer/invariant_noop.rs:22-25"]}
{"id": "C68", "title": "into_inner loses and repeats nothing", "statement": "into_inner gives back a producer or consumer that continues exactly where the adaptor stopped: the recovered producer plays what is left of its sequence after the items that the adaptor handed out, and the recovered consumer has been passed exactly the items that were passed to the adaptor. Together with the queue that is given back too, the same holds for readers and writers.", "quantifier": "all inner producers, consumers, readers and writers that keep the contract, all histories of allowed calls on the adaptor, all functions and limits", "why_tests_cant": "Depends on all histories of calls before into_inner; no test calls into_inner of an adaptor and uses the result.", "anchors": ["ufotofu/src/producer/limit.rs:40-47", "ufotofu/src/consumer/limit.rs:31-37", "ufotofu/src/producer/reader.rs:128-131", "ufotofu/src/consumer/writer.rs:22-25", "ufotofu/src/producer/bulk_scrambler.rs:82-86", "ufotofu/src/consumer/bulk_scrambler.rs:80-84", "ufotofu_codec/src/adaptors/decoder.rs:26-29"]}
{"id": "C69", "title": "Equality of test doubles", "statement": "Two TestProducers are equal exactly if the values that they have emitted or will emit (items, final value, error) are the same; two TestConsumers are equal exactly if they have consumed the same items and the same final value and store the same error. Positions, sizes of exposed slices, yield patterns and numbers of operations until the error do not matter; the comparison never panics.", "quantifier": "all items, last values, errors, sizes, patterns, and all pairs of histories of allowed calls", "why_tests_cant": "Quantifies over pairs of histories; the fuzz targets use this equality as their oracle, nothing tests the oracle.", "anchors": ["ufotofu/src/producer/test_producer.rs:160-168", "ufotofu/src/consumer/test_consumer.rs:165-174"]}
{"id": "C70", "title": "IntoSlice fills the slice in order", "statement": "An IntoSlice accepts exactly as many items as its slice is long, stores them in order from the start of the slice, and then refuses items and slots; flushing and closing never fail; get_offset, get_overwritten_so_far and get_not_yet_overwritten report position, items consumed, and the rest, without panicking; items behind the position change only through writes to exposed slots; nothing panics.", "quantifier": "all slices, all histories of allowed calls", "why_tests_cant": "Quantifies over all slices and all histories of mixed single, bulk and slot calls; the file is currently not compiled by the crate at all.", "anchors": ["ufotofu/src/consumer/into_slice.rs:29-126"]}
{"id": "C71", "title": "Fallible construction of Fixed queues", "statement": "The try_ constructors of Fixed never panic; they return None exactly if the memory allocation fails, and otherwise the same queue as new (which then acts as a FIFO queue); the other constructors panic exactly if it fails. Every constructor performs a single allocation, for exactly the capacity.", "quantifier": "all allocators, capacities, fillers, item types", "why_tests_cant": "Quantifies over all behaviours of the allocator, including failure of any request; the feature needs a nightly compiler and no test enables it.", "anchors": ["ufotofu_queues/src/fixed.rs:41-98", "ufotofu_queues/src/fixed.rs:139-198"]}
{"id": "C72", "title": "Static works exactly like Fixed", "statement": "No sequence of calls tells a Static queue from a Fixed queue of the same capacity and initial contents: all answers, the items shown by Debug, and the calls that panic are the same, even if the calls violate the documented invariants.", "quantifier": "all capacities (including 0), item types, initial contents, call sequences", "why_tests_cant": "Quantifies over all capacities and all call sequences including forbidden ones; the two files are separate copies of the code, and each is fuzzed only against a list with allowed calls.", "anchors": ["ufotofu_queues/src/lib.rs:12", "ufotofu_queues/src/static_.rs:10-165", "ufotofu_queues/src/fixed.rs:18-390"]}
{"id": "C73", "title": "Readers and writers sidestep their queue", "statement": "ReaderToBulkProducer fills its queue only in expose_items, and only when it is empty; used without expose_items (bulk_produce, produce, slurp, and all functions implemented by them), it behaves as if there was no queue, bulk_produce being one read into the caller's buffer, and the queue stays untouched. Likewise WriterToBulkConsumer: used without expose_slots (bulk_consume, consume, flush, close, bulk_consume_full_slice, bulk_pipe, ...), it behaves as if there was no queue; only consume_slots puts bytes into it, and every other successful call leaves it empty.", "quantifier": "all readers and writers (lawful or not), queues, call sequences, buffers, pipe partners", "why_tests_cant": "Quantifies over all readers and writers and all call sequences; that a buffer is not used is invisible in the outputs that a test compares.", "anchors": ["ufotofu/src/producer/reader.rs:113", "ufotofu/src/producer/reader.rs:134-228", "ufotofu/src/consumer/writer.rs:9", "ufotofu/src/consumer/writer.rs:28-112"]}
{"id": "C74", "title": "Order of endian encodings", "statement": "Comparing the encodings of two values byte by byte gives the derived order (Ord) of the values for exactly the unsigned big-endian types and U8LE; for the signed big-endian types and I8LE it gives the derived order except that negative values come last; for little-endian types of several bytes there are values in order whose encodings are in the opposite order.", "quantifier": "all pairs of values of all sixteen types", "why_tests_cant": "Quantifies over all pairs of 64 bit values.", "anchors": ["ufotofu_codec_endian/src/lib.rs:40-95", "ufotofu_codec_endian/src/lib.rs:128-200", "ufotofu_codec_endian/src/lib.rs:202-232"]}
{"id": "C75", "title": "Debug assertions change nothing", "statement": "In builds with debug assertions every call of a method of either BulkScrambler does the same as in builds without.", "quantifier": "all wrapped producers and consumers (lawful or not), all states, all calls, all histories", "why_tests_cant": "Tests run in one of the two builds, and on finitely many histories.", "anchors": ["ufotofu/src/producer/bulk_scrambler.rs:271-314", "ufotofu/src/consumer/bulk_scrambler.rs:160-172", "ufotofu/src/consumer/bulk_scrambler.rs:244-288"]}
{"id": "C76", "title": "Abandoned pipes", "statement": "When the future of a piping function (pipe, bulk_pipe, pipe_at_most, bulk_pipe_at_most) is dropped between two polls, a call of only one of the producer and the consumer is pending, and the other one has produced or consumed exactly what was moved so far: a consumer none of whose calls is pending has consumed exactly the first items of the producer; a producer none of whose calls is pending goes on right after the items moved (bulk), or right after the one item that was passed to the pending call (item by item), so that at most that one item is lost. A dropped bulk_overwrite_full_slice leaves the items produced so far at the start of the buffer.", "quantifier": "all lawful producers and consumers, however often their futures are pending; all numbers of polls before the drop; all limits and buffers", "why_tests_cant": "Quantifies over all ways in which futures can be pending and all times at which the outer future is dropped.", "anchors": ["ufotofu/src/lib.rs:33", "ufotofu/src/lib.rs:541-574", "ufotofu/src/lib.rs:579-613", "ufotofu/src/lib.rs:620-658", "ufotofu/src/lib.rs:665-705", "ufotofu/src/lib.rs:506-536"]}
{"id": "C77", "title": "Items are cloned once", "statement": "Whatever Clone::clone makes of an item: produce and bulk_produce of FromSlice and FromBoxedSlice yield what one clone makes of it; bulk_consume, consume_full_slice and bulk_consume_full_slice consume what one clone makes of every item of the buffer; all four piping functions move from a slice into a vector what one clone makes of every item; queues of positive capacity act like a list whose items are cloned once by bulk_enqueue, and once by dequeue and bulk_dequeue, whose originals stay in the buffer until they are overwritten.", "quantifier": "all total functions as clone, all item types, all slices, buffers, consumers with the default bulk_consume, all call sequences on queues", "why_tests_cant": "The tests use items for which clone copies, so they see neither missing nor superfluous clones.", "anchors": ["ufotofu/src/lib.rs:145", "ufotofu/src/lib.rs:247", "ufotofu/src/lib.rs:480", "ufotofu/src/producer/from_slice.rs:161", "ufotofu/src/producer/from_boxed_slice.rs:200", "ufotofu_queues/src/lib.rs:99", "ufotofu_queues/src/lib.rs:150", "ufotofu_queues/src/fixed.rs:279", "ufotofu_queues/src/static_.rs:116"]}
{"id": "C78", "title": "Panicking clones lose nothing", "statement": "If Clone::clone panics in a method of a producer, consumer or queue, and the panic is caught, then nothing has been lost: the producer still produces everything it would have produced, the consumer has consumed nothing (consume_full_slice: the clones of the items before the one that panicked), the queue has the contents that it had.", "quantifier": "all functions as clone that may panic on any items, all lawful producers and consumers, all call sequences on queues that go on after panics", "why_tests_cant": "The tests use items whose clone does not panic.", "anchors": ["ufotofu/src/lib.rs:136-157", "ufotofu/src/lib.rs:237-252", "ufotofu/src/lib.rs:469-489", "ufotofu/src/producer/from_slice.rs:157-166", "ufotofu_queues/src/lib.rs:93-105", "ufotofu_queues/src/lib.rs:144-156", "ufotofu_queues/src/fixed.rs:270-281", "ufotofu_queues/src/static_.rs:107-118"]}
{"id": "C79", "title": "Which methods are called", "statement": "Every call of a method of MapItem, MapFinal, MapError or Invariant (in debug and release builds) makes exactly the same call, with the mapped item or final value, of the wrapped producer or consumer, and no other; bulk_produce and bulk_consume become expose_items and consider_produced, or expose_slots, writing and consume_slots, for at most as many items as the buffer has. Limit does so too, except that at the limit it asks for and offers nothing any more, while slurp, flush and close are still passed on. Encoders pass on close and flush, and consume does just what encode does; decoders pass on slurp, and produce makes a single expose_items and then, unless that gave the final value or an error, just what decode does. The integer codecs use only bulk_consume and bulk_produce, for exactly the bytes that are missing. pipe and pipe_at_most call produce once for every consume or close, never slurp or flush, close at most once and last, and never after a failure or when the limit is reached; bulk_pipe and bulk_pipe_at_most go through rounds of expose_items, bulk_consume and consider_produced in the same way, never offering more than the limit leaves. The functions on full slices call only the one method, never with an empty slice, and stop at the first failure.", "quantifier": "all producers and consumers, lawful or not, all call sequences", "why_tests_cant": "Tests compare the items that arrive; a forgotten slurp or flush, or a superfluous call, changes nothing about them for the producers and consumers used in tests.", "anchors": ["ufotofu/src/producer/map_item.rs:45-49", "ufotofu/src/producer/map_final.rs:52-78", "ufotofu/src/producer/map_error.rs:49-80", "ufotofu/src/producer/limit.rs:48-95", "ufotofu/src/producer/invariant.rs:82-148", "ufotofu/src/producer/invariant_noop.rs:64-93", "ufotofu/src/consumer/map_item.rs:37-63", "ufotofu/src/consumer/map_final.rs:37-75", "ufotofu/src/consumer/map_error.rs:33-84", "ufotofu/src/consumer/limit.rs:38-83", "ufotofu/src/consumer/invariant.rs:78-152", "ufotofu/src/consumer/invariant_noop.rs:60-100", "ufotofu/src/lib.rs:136-157", "ufotofu/src/lib.rs:269-293", "ufotofu/src/lib.rs:337-396", "ufotofu/src/lib.rs:506-705", "ufotofu_codec/src/adaptors/encoder.rs:43-55", "ufotofu_codec/src/adaptors/decoder.rs:43-59", "ufotofu_codec/src/adaptors/relative_encoder.rs:52-65", "ufotofu_codec/src/adaptors/relative_decoder.rs:52-72", "ufotofu_codec_endian/src/lib.rs:24-110"]}
{"id": "C80", "title": "Scramblers cycle through their operations", "statement": "The calls that a BulkScrambler makes of the wrapped producer or consumer are the given operations in turn, over and over (with a produce or consume appended if all of them are slurp or flush). The producer scrambler performs operations whenever an item or slurp is asked for, until its queue is full or the wrapped producer has come to an end; only then is a slurp passed on. It never asks for more items than were handed out, fit into the queue, and the one that is not there. The consumer scrambler performs operations only when its queue is full and more items are offered, or to flush or close, until the queue is empty; only then is flush or close passed on, once. It never holds back more items than fit into the queue, and an operation that fails is the last call.", "quantifier": "all producers and consumers, lawful or not, all lists of operations, all positive capacities, all call sequences, debug and release builds, the public types and the types that they wrap", "why_tests_cant": "Tests compare the items that arrive, which are the same for all lists of operations; a scrambler that always called produce would pass them.", "anchors": ["ufotofu/src/producer/bulk_scrambler.rs:36-78", "ufotofu/src/producer/bulk_scrambler.rs:138-140", "ufotofu/src/producer/bulk_scrambler.rs:165-313", "ufotofu/src/consumer/bulk_scrambler.rs:35-76", "ufotofu/src/consumer/bulk_scrambler.rs:135-137", "ufotofu/src/consumer/bulk_scrambler.rs:160-287"]}
{"id": "C81", "title": "Values written to a file and read back", "statement": "If a sequence of values is piped into an Encoder around a WriterToBulkConsumer, and what has been written is then read by a Decoder around a ReaderToBulkProducer or BufReaderToBulkProducer: if the pipe succeeded, then exactly the encodings of all values have been written, the writer has been closed, and the decoder emits exactly the values and then ends; if the writer failed, wherever that was, then a beginning of the encodings has been written, and the decoder emits exactly the values whose encodings are complete, and then ends or, if a part of an encoding is left over, reports UnexpectedEndOfInput. No other value is ever emitted.", "quantifier": "all lawful producers, all codecs whose decode inverts encode and that have no empty encodings, all writers and readers whatever amounts they transfer at once, all points of failure, all queues of capacity at least 1", "why_tests_cant": "Quantifies over all codecs, all chunkings on both sides, and all points at which the writer can fail.", "anchors": ["ufotofu_codec/src/adaptors/encoder.rs:8-56", "ufotofu_codec/src/adaptors/decoder.rs:12-113", "ufotofu/src/consumer/writer.rs", "ufotofu/src/producer/reader.rs", "ufotofu/src/lib.rs:541-574"]}
{"id": "C82", "title": "IntoVec grows geometrically", "statement": "The vector of IntoVec is enlarged only by a call that finds it full, and then to twice its length and one more. So after k enlargements it has 2^k * (n + 1) - 1 slots, n being the initial length; it never has more than twice as many slots as items, and one; consuming m items takes at most log2(m + 1) + 1 enlargements, which move and create at most 4m + 2n + 2 values altogether.", "quantifier": "all initial vectors, items and call sequences that respect the contract", "why_tests_cant": "Tests compare the contents of the vector, which does not depend on how it grows; the bound is about arbitrarily long histories.", "anchors": ["ufotofu/src/consumer/into_vec.rs:150-155", "ufotofu/src/consumer/into_vec.rs:171-179", "ufotofu/src/consumer/into_vec.rs:193-207"]}
{"id": "C83", "title": "bulk_pipe into a vector takes few rounds", "statement": "When bulk_pipe has moved m items into an IntoVec, at most log2(m + 1) of its rounds (expose_items, bulk_consume, consider_produced) took less than everything that was exposed, whatever the producer exposes and however the pipe ended. In particular piping a slice of m items into a vector succeeds after at most log2(m + 1) + 1 rounds.", "quantifier": "all producers, lawful or not, all initial vectors, all slices", "why_tests_cant": "The number of rounds is not visible in results; the bound is about arbitrarily many items and all patterns of exposed slices.", "anchors": ["ufotofu/src/lib.rs:579-613", "ufotofu/src/consumer/into_vec.rs:150-155", "ufotofu/src/consumer/into_vec.rs:193-207", "ufotofu/src/producer/from_slice.rs:177-195"]}
{"id": "C84", "title": "Adaptor stacks around consumers that delay their effects", "statement": "Any nesting of the consumer adaptors Limit, MapFinal, Invariant and BulkScrambler (in release builds, see C28) around a bulk consumer that may keep items back and report errors later never panics; at any time the wrapped consumer has really consumed a prefix of the items passed to the stack, and after each successful flush or close all of them, closed with the mapped final value; None is reported only when a limit is exceeded (or slots are asked for at the limit), and any other error is one that the wrapped consumer may report for the items within the limit. So if a pipe into such a stack succeeds, exactly the items of the producer and the mapped final value have arrived; if it fails, a prefix has; and it succeeds if there is no reason to fail.", "quantifier": "all stacks, all lawful delaying consumers, all lists of operations and capacities of scramblers, all lawful producers, all call sequences", "why_tests_cant": "Quantifies over all nestings and over all ways in which consumers can delay.", "anchors": ["ufotofu/src/consumer/limit.rs:38-83", "ufotofu/src/consumer/map_final.rs:37-75", "ufotofu/src/consumer/invariant.rs:21-152", "ufotofu/src/consumer/bulk_scrambler.rs:111-287"]}
{"id": "C85", "title": "Trees of merges, end to end", "statement": "Any tree of merges, of any shape and over producers that may be pending at any poll, is itself a producer that never panics. At any time the items it has emitted are a shuffle of prefixes of what its leaves emit; it emits a final value only after all leaves have emitted theirs, and that value is one of them; an error it emits is the next entry of some leaf. Piping it into any consumer therefore returns if all leaves are finite; if no leaf fails and the consumer accepts everything, the consumer ends up with every item of every leaf exactly once, the items of each leaf in order, closed with the final value of one of them.", "quantifier": "all trees of merges, all lawful leaf producers with all patterns of pending polls, all lawful consumers and policies", "why_tests_cant": "Quantifies over all trees, all interleavings of pending polls of all leaves, and all sequences.", "anchors": ["ufotofu/src/producer/merge.rs:9-86", "ufotofu/src/lib.rs:541-574"]}
{"id": "C86", "title": "Stacks of producer adaptors with scramblers", "statement": "Every stack of Limit, MapFinal, Invariant and BulkScrambler, in any order and number, around a producer emits exactly the sequence that the adaptors prescribe, as if the scramblers were not there, for every mix of produce, expose_items/consider_produced and bulk_produce; so do pipes and bulk pipes from it, into any consumer and into stacks of consumer adaptors with scramblers of their own. This needs that a scrambler which has been told to slurp has neither a Limit nor another scrambler below it; a scrambler that slurps a Limit can emit an error from beyond the limit.", "quantifier": "all stacks, all operations and capacities of the scramblers, all lawful producers, all lawful consumers and policies", "why_tests_cant": "Quantifies over all stacks of adaptors, all lists of operations, all capacities and all sequences.", "anchors": ["ufotofu/src/producer/bulk_scrambler.rs:1-314", "ufotofu/src/producer/limit.rs:1-95", "ufotofu/src/producer/map_final.rs:1-78", "ufotofu/src/producer/invariant.rs:1-148", "ufotofu/src/lib.rs:541-574"]}
{"id": "C87", "title": "Stacks of adaptors that change items", "statement": "Every stack of MapItem, Limit, MapFinal and Invariant, in any order and number and with any (stateful) functions, around a producer emits the composition of the transformations of its sequence; for a finite sequence, that of `take` and of mapping lists. Every such stack around a consumer accepts and refuses according to the composition of the transformations, the wrapped consumer receiving the images. Piping a finite sequence through two such stacks into a consumer that accepts everything delivers exactly the items that fit through the limits, each mapped once and in order, and closes with the mapped final value exactly if all fit and the producer has ended without error.", "quantifier": "all stacks on both sides, all functions and initial states of MapItem, all limits, all lawful producers and consumers, all sequences and policies", "why_tests_cant": "Quantifies over all stacks of adaptors, all functions and all sequences.", "anchors": ["ufotofu/src/producer/map_item.rs:1-49", "ufotofu/src/producer/limit.rs:1-95", "ufotofu/src/producer/map_final.rs:1-78", "ufotofu/src/producer/invariant.rs:1-148", "ufotofu/src/consumer/map_item.rs:1-63", "ufotofu/src/consumer/limit.rs:1-83", "ufotofu/src/consumer/map_final.rs:1-75", "ufotofu/src/consumer/invariant.rs:1-152", "ufotofu/src/lib.rs:541-574"]}
{"id": "C88", "title": "Stacks of adaptors, poll by poll", "statement": "Every stack of MapItem, Limit, MapFinal and Invariant, and every stack of Limit, MapFinal, Invariant and BulkScrambler, is polled to the same results as without suspensions, is pending exactly as often as what it wraps, and waits for nothing else. Polling the future of pipe between two stacks completes it with the result that the composed transformations determine, after being pending exactly as often as the two ends; polling that of bulk_pipe between two stacks with scramblers completes it with the whole transformed sequence delivered, or with an error and a beginning of it delivered, unless the sequence is endless.", "quantifier": "all stacks on both sides, all functions and limits, all scrambling patterns (slurping ones excluded on the producer's side, see C86), all lawful producers and consumers that may be pending at any poll, all sequences and policies", "why_tests_cant": "Quantifies over all stacks of adaptors, all sequences, and all patterns of suspension.", "anchors": ["ufotofu/src/producer/map_item.rs:1-49", "ufotofu/src/producer/limit.rs:1-95", "ufotofu/src/producer/map_final.rs:1-78", "ufotofu/src/producer/invariant.rs:1-148", "ufotofu/src/producer/bulk_scrambler.rs:1-314", "ufotofu/src/consumer/map_item.rs:1-63", "ufotofu/src/consumer/limit.rs:1-83", "ufotofu/src/consumer/map_final.rs:1-75", "ufotofu/src/consumer/invariant.rs:1-152", "ufotofu/src/consumer/bulk_scrambler.rs:1-288", "ufotofu/src/lib.rs:541-574"]}
{"id": "C89", "title": "Networks of adaptors and merges", "statement": "A network of merges and of stacks of MapItem, Limit, MapFinal and Invariant, nested in any way on top of finite producers, is a producer that emits one of the sequences which composing the transformations of the stacks and interleaving at the merges allows: all items and one of the final values where both sides of a merge end without error, otherwise the error of a side all items of which have been emitted. Piping it through a stack of consumer adaptors returns, and delivers that sequence as far as it fits through the limits. In particular, two producers whose items are tagged before they are merged arrive complete, each in order.", "quantifier": "all networks, all functions and limits, all finite sequences, all ways in which the leaves and the consumer are pending, all lawful consumers that accept everything", "why_tests_cant": "Quantifies over all networks, all sequences, and all patterns of suspension.", "anchors": ["ufotofu/src/producer/merge.rs:1-86", "ufotofu/src/producer/map_item.rs:1-49", "ufotofu/src/producer/limit.rs:1-95", "ufotofu/src/producer/map_final.rs:1-78", "ufotofu/src/producer/invariant.rs:1-148", "ufotofu/src/consumer/map_item.rs:1-63", "ufotofu/src/consumer/limit.rs:1-83", "ufotofu/src/consumer/map_final.rs:1-75", "ufotofu/src/consumer/invariant.rs:1-152", "ufotofu/src/lib.rs:541-574"]}
{"id": "C90", "title": "Bulk producers that report errors early", "statement": "consider_produced may fail according to its documentation. If a bulk producer is lawful except that its consider_produced may report the error that comes directly after the items marked as produced, then: bulk_pipe gives the same result and delivers the same items as pipe; bulk_pipe_at_most and bulk_overwrite_full_slice give the same results as their item-wise counterparts; the default bulk_produce emits the same sequence; MapFinal, Invariant and Limit emit the sequence they should; and BulkScrambler emits the same sequence by all methods.", "quantifier": "all producers of this kind, all sequences, all lawful consumers, all buffers, counts and limits, all lists of operations and capacities", "why_tests_cant": "No producer in the repository reports an error from consider_produced on its own, and the claims are about all producers, sequences and exposed amounts.", "anchors": ["ufotofu/src/lib.rs:439-489", "ufotofu/src/lib.rs:506-536", "ufotofu/src/lib.rs:576-612", "ufotofu/src/lib.rs:657-701", "ufotofu/src/producer/bulk_scrambler.rs:236-318", "ufotofu/src/producer/limit.rs:91-94", "ufotofu/src/producer/map_final.rs:75-77", "ufotofu/src/producer/invariant.rs:136-147"]}
{"id": "C91", "title": "Calls after the end", "statement": "If a producer is asked again although it has returned its final value or an error, then: FromSlice and FromBoxedSlice repeat the final value for ever, as do the reader adaptors at the end of a file, and MapItem, MapFinal (after errors), Invariant outside of tests and the four decoders around producers that do so; BulkScrambler and Merge (after a final value, under fair schedules) end repeating it if the wrapped producers do; Limit at its limit repeats None; Empty, MapFinal (after the final value) and TestProducer panic. A Limit below its limit around such a producer first returns Some of the final value as often as it still allowed items, and None after that; Merge goes on with items of the other producer after an error. Tasks that share a decoder of such a producer all receive the final value.", "quantifier": "all producers, all states and histories of calls, all further calls, all limits, schedules, operations and interleavings", "why_tests_cant": "The tests stop at the final value, and in tests the Invariant wrapper turns every further call into a panic; the claims are about arbitrarily many further calls of all methods.", "anchors": ["ufotofu/src/lib.rs:305-321", "ufotofu/src/producer/from_slice.rs:54-115", "ufotofu/src/producer/limit.rs:48-95", "ufotofu/src/producer/merge.rs:47-85", "ufotofu/src/producer/empty.rs:20-60", "ufotofu/src/producer/test_producer.rs:339-423", "ufotofu/src/producer/bulk_scrambler.rs:170-234", "ufotofu_codec/src/adaptors/shared_decoder.rs:1-60"]}
{"id": "C92", "title": "Calls of consumers after the end", "statement": "If a consumer is used again although it has been closed or has returned an error, then: IntoSlice refuses every item with the same error for ever once it has refused one, and so do MapItem, MapFinal, Invariant outside of tests, bulk_consume_full_slice, the integer encoders and all tasks that share an encoder around such a consumer; Limit at its limit refuses everything with None, below its limit around such a consumer it first answers Some of the error and then None; MapFinal panics when closed twice, MapError and TestConsumer panic when they would have to return their error twice. IntoVec, and TestConsumer outside of tests, go on accepting items after close; a consumer BulkScrambler accepts items again after an error (and so drops the one it could not deliver).", "quantifier": "all consumers, all states and histories of calls, all further calls, all limits, operations and interleavings of tasks", "why_tests_cant": "The tests stop at the end, and in tests of the crate itself the Invariant wrapper turns every further call into a panic; the claims are about arbitrarily many further calls of all methods.", "anchors": ["ufotofu/src/lib.rs:105-131", "ufotofu/src/consumer/into_slice.rs:88-125", "ufotofu/src/consumer/limit.rs:44-83", "ufotofu/src/consumer/test_consumer.rs:332-340", "ufotofu/src/consumer.rs:57-64", "ufotofu/src/consumer/bulk_scrambler.rs:100-200", "ufotofu_codec/src/adaptors/shared_encoder.rs:1-60"]}
{"id": "C93", "title": "What networks can emit", "statement": "Fix the shape of a network: finite sequences at its leaves, stacks of adaptors and merges on top. A sequence of items with a last value can be emitted by some network of this shape (depending on when the leaves are pending) if and only if composing the transformations of the adaptors and interleaving at the merges allows it, provided that there is no Limit below a merge. The direction from emitted to allowed holds for all networks. With a Limit below a merge the other direction fails: a Limit at its limit is never pending, so a merge never emits the None of a Limit on its first side whose limit is 0 if the other side ends without items.", "quantifier": "all shapes of networks, all sequences and last values, all functions in the adaptors", "why_tests_cant": "The claim is that every allowed interleaving is reachable by some schedule and no other is; tests run single schedules.", "anchors": ["ufotofu/src/producer/merge.rs:47-85", "ufotofu/src/producer/limit.rs:54-65", "ufotofu/src/producer/map_item.rs:32-43", "ufotofu/src/producer/map_final.rs:35-50"]}
{"id": "C94", "title": "Laws of networks", "statement": "Call two networks of adaptors and merges equivalent if the same sequences with the same last values can be emitted (depending on when the leaves are pending). For all networks: two MapItems are one with the composed function, two MapFinals are one, two Limits are one with the smaller limit, Limit and MapItem commute, and stacks of adaptors respect equivalence. For networks without Limit below a merge: merges are commutative and associative and respect equivalence, and MapItem with a function without state and MapFinal may be moved below a merge. The restrictions are needed: with a Limit below a merge the order of the producers matters, and neither a MapItem with state nor a Limit may be moved below a merge.", "quantifier": "all shapes of networks, all sequences at the leaves, all functions in the adaptors, all limits", "why_tests_cant": "Equivalence quantifies over all schedules of both networks and all sequences; tests compare single runs.", "anchors": ["ufotofu/src/producer/merge.rs:47-85", "ufotofu/src/producer/limit.rs:54-65", "ufotofu/src/producer/map_item.rs:32-43", "ufotofu/src/producer/map_final.rs:35-50"]}
{"id": "C95", "title": "Networks on top of endless producers", "statement": "A network of adaptors (Limit, MapItem, MapFinal, Invariant) and merges on top of producers that may be endless and may be pending at any time answers every call of produce. At any time, what it has emitted is what the adaptors and merges make of beginnings of the sequences of its leaves; it ends only if a Limit has been reached or the producers it depends on have ended. A Limit of n on top emits at most n items and then ends, whatever is below. Piping at most n items from such a network into a consumer that accepts everything returns, with n items that the network may have emitted or with fewer if the network ends after them.", "quantifier": "all networks, all finite and endless sequences at the leaves, all patterns of pending, all functions in the adaptors, all limits and counts", "why_tests_cant": "Tests run finite sequences; here the leaves may be infinite and the schedules and networks are arbitrary.", "anchors": ["ufotofu/src/producer/merge.rs:47-85", "ufotofu/src/producer/limit.rs:54-65", "ufotofu/src/producer/map_item.rs:32-43", "ufotofu/src/producer/map_final.rs:35-50", "ufotofu/src/lib.rs:615-658"]}
{"id": "C96", "title": "Merging streams of encoded values", "statement": "Two Decoders, on top of producers of the encodings of two lists of values, each of which may end inside of an encoding or with an error, are merged and piped into an Encoder around any consumer of bytes, which may delay its effects and fail. If the pipe succeeds then no encoding was incomplete, and the consumer has got exactly the encodings of an interleaving of the two lists and has been closed with one of the two final values. If it reports an error of the merge, it is the error of one of the decoders, all complete values of which have been encoded. In every case, bytes of different values are never mixed: what has been passed on are encodings of values of the two lists, in order. Written to a file through a writer and decoded again, this gives an interleaving of beginnings of the two lists, and of the whole lists and then the end if the pipe has succeeded. More generally, Decoders are leaves of networks of adaptors and merges, and piping such a network into an Encoder gives the encodings of what the network emits.", "quantifier": "all codecs without empty encodings that obey the laws, all lists of values, all places where the streams end, all networks, all patterns of pending, all consumers, writers, queues and their failures", "why_tests_cant": "Combines arbitrary codecs, schedules, networks, buffer sizes and failures; a test runs one combination.", "anchors": ["ufotofu_codec/src/adaptors/decoder.rs:43-49", "ufotofu_codec/src/adaptors/encoder.rs:39-45", "ufotofu/src/producer/merge.rs:47-85", "ufotofu/src/consumer/writer.rs:30-112", "ufotofu/src/lib.rs:541-575"]}
{"id": "C97", "title": "The timing of networks", "statement": "What a network of adaptors (Limit, MapItem, MapFinal, Invariant) and merges emits, and how often it is pending before each answer, is a function of what its leaves emit and how often these are pending before each answer. A merge emits the answer that is available after fewer polls, and that of the first producer if there is no difference; its first producer is polled once more than the second one before an answer of the second one. So a network can emit a sequence if and only if some timing of its leaves leads to it, with Limits below merges, too. If the first producer of a merge is never pending, then all of its items are emitted before those of the second one. If the second one is never pending, then before each answer of the first one exactly as many items of the second one are emitted as the first one is pending. A network is pending, from the first call to the last answer, at most as often as the leaf that is pending most often, and so is piping it into a consumer that is never pending.", "quantifier": "all networks, all finite producers at the leaves, all patterns of pending, all consumers that are never pending", "why_tests_cant": "The claim gives the exact result for each of infinitely many combinations of networks and patterns of pending; a test observes one of them.", "anchors": ["ufotofu/src/producer/merge.rs:47-85", "ufotofu/src/producer/limit.rs:48-95", "ufotofu/src/producer/map_item.rs:37-42", "ufotofu/src/producer/map_final.rs:30-78", "ufotofu/src/lib.rs:541-575"]}
{"id": "C98", "title": "Decoding any bytes, and encoding again", "statement": "Any sequence of bytes falls, in exactly one way, into encodings and a rest at which decoding stops; a Decoder emits the values of these encodings, and then the final value if nothing is left, UnexpectedEndOfInput if the rest is the beginning of an encoding, and an error if it is not or if the producer of bytes fails. Different lists of values have different encodings. Piping a Decoder into an Encoder always terminates if the bytes are finite, and the consumer of bytes receives the encodings of the decoded values. If values are encoded as the codes they were decoded from (canonic decoding), it receives the same bytes, up to the rest; otherwise, encoding again is idempotent. For integers of N bytes, all whole groups of N bytes are copied, or reversed if the byte orders differ, and bytes that are left over are reported.", "quantifier": "all codecs that keep their contract, all bytes, all producers and consumers of bytes, all points of failure", "why_tests_cant": "The bytes, the codec, and the points at which the producer or the consumer fail are arbitrary.", "anchors": ["ufotofu_codec/src/adaptors/decoder.rs:32-113", "ufotofu_codec/src/adaptors/encoder.rs:25-56", "ufotofu_codec/src/decode.rs:7-50", "ufotofu_codec_endian/src/lib.rs:24-110"]}
{"id": "C99", "title": "Frames: codecs around Limit", "statement": "A Decoder around a producer::Limit reads exactly the values whose encodings fill the given number of bytes, then emits the final value None; afterwards into_inner gives back a producer that is directly after the frame, so frames that follow each other can be read one after the other, and what comes after them is still there. If the frame ends within an encoding, decoding fails with UnexpectedEndOfInput(None); if the stream ends within the frame, with its own final value or error. An Encoder around a consumer::Limit writes exactly the encodings of the values; a value that does not fit fills the frame with the beginning of its encoding and fails with None, and into_inner gives back a consumer that can be used on. Frames that were written are read back, and nothing is left over.", "quantifier": "all codecs that keep their contract and call the methods of the producer or consumer as documented, all values, all numbers and lengths of frames, all producers and consumers of bytes", "why_tests_cant": "Frames, codecs and the ways in which the inner producer exposes its bytes are arbitrary; a Limit that is one byte off only shows in the frame after it.", "anchors": ["ufotofu/src/producer/limit.rs:47-94", "ufotofu/src/consumer/limit.rs:25-83", "ufotofu_codec/src/adaptors/decoder.rs:12-60", "ufotofu_codec/src/adaptors/encoder.rs:8-56", "ufotofu_codec_endian/src/lib.rs:24-110"]}
{"id": "C100", "title": "Abandoned calls of codecs", "statement": "If a call of Decoder::produce or Encoder::consume is dropped before it has completed, then a Decoder has either called expose_items only, and no byte is missing, or is decoding: an integer decoder has then read fewer bytes than the integer has, in order, and bulk_produce with the rest of the buffer is pending. An integer encoder has written a proper prefix of the encoding, and bulk_consume with the rest is pending. Decoding once more begins after the bytes that the dropped call had read, so it can yield an integer that was never encoded. The full-slice methods, in bulk or item by item, keep to the same: what has been moved is a proper prefix, and the pending call is the one for the next item.", "quantifier": "all producers and consumers of bytes, all integer types, both byte orders, all codecs for the outer part of Decoder, all states in which a call can be dropped", "why_tests_cant": "A call can be dropped at every await point, and what has been read by then depends on how the inner producer exposes its bytes.", "anchors": ["ufotofu/src/lib.rs:136-157", "ufotofu/src/lib.rs:269-293", "ufotofu/src/lib.rs:371-396", "ufotofu/src/lib.rs:506-536", "ufotofu_codec/src/adaptors/decoder.rs:32-60", "ufotofu_codec/src/adaptors/encoder.rs:25-56", "ufotofu_codec_endian/src/lib.rs:57-106"]}
{"id": "C101", "title": "Messages that begin with their length", "statement": "If each message consists of a header that says how many bytes follow and of that many bytes, then messages that follow each other are read one after the other by a Decoder for the headers and Decoders around Limits for the values, each with exactly its values. If the bytes of a message end within an encoding, then decoding that message fails with UnexpectedEndOfInput(None), and the messages after it are read as if nothing had happened: all bytes of the broken message have been read and none after it. Messages written with an Encoder for the headers and Encoders around Limits consist of exactly these bytes, and reading them from a vector gives them back, after which the Decoder of headers emits the final value; for integers this holds for all lengths that fit into the header.", "quantifier": "all codecs of headers and values that keep their contract and call the methods of the producer or consumer as documented, all messages, all producers and consumers of bytes", "why_tests_cant": "What happens to the message after a broken one depends on the bytes of both and on how the inner producer exposes them.", "anchors": ["ufotofu/src/producer/limit.rs:47-94", "ufotofu/src/consumer/limit.rs:25-83", "ufotofu_codec/src/adaptors/decoder.rs:12-60", "ufotofu_codec/src/adaptors/encoder.rs:8-56", "ufotofu_codec_endian/src/lib.rs:24-110", "ufotofu/src/lib.rs:506-536"]}
{"id": "C102", "title": "Dropped pipes that are started again", "statement": "bulk_pipe holds no items of its own. If the producer and the consumer tolerate that a call is dropped (a dropped call leaves what they have to emit or have consumed as it was; TestProducer and TestConsumer do), then bulk_pipe can be dropped and started again any number of times while expose_items or bulk_consume is pending: the last run gives the same result, and the consumer has consumed the same items, as a single run that is not dropped. It is not so in the other two places: if it is dropped while consider_produced is pending, the items that the consumer has consumed last are emitted again, so the consumer gets them twice, although the pipe reports success; if it is dropped while close is pending, the producer has ended, and starting again from a TestProducer panics. pipe holds an item: if it is dropped while consume is pending, that item is lost.", "quantifier": "all producers and consumers that tolerate dropped calls, all numbers of drops at all polls, all yield patterns", "why_tests_cant": "The pipe can be dropped at every poll, any number of times, and the outcome depends on which call was pending each time.", "anchors": ["ufotofu/src/lib.rs:541-570", "ufotofu/src/lib.rs:579-613", "ufotofu/src/lib.rs:237-252", "ufotofu/src/producer/test_producer.rs:370-423", "ufotofu/src/consumer/test_consumer.rs:399-439", "ufotofu/src/test_yielder.rs:61-71"]}
{"id": "C103", "title": "Adaptors and dropped calls", "statement": "Limit counts an item before it awaits the wrapped producer or consumer. So, if the wrapped one tolerates dropped calls (see C102), a dropped call of expose_items or expose_slots of a Limit has no effect, but a dropped call of produce, consider_produced, consume or consume_slots lowers the limit though nothing has been emitted or consumed. Hence bulk_pipe from a Limit can be dropped while expose_items is pending and started again without losing anything, while pipe from a Limit of n+1 that is dropped once while produce is pending and started again reports success with only n items, though the producer had more; and bulk_pipe into a Limit of n that is dropped while consume_slots is pending and started again fails because of the limit with fewer than n items consumed. The producers MapItem and MapFinal act only after they have awaited, so a dropped call has no effect on them, nor on what the function of MapItem has captured; the consumer MapItem has called its function for an item that is not consumed.", "quantifier": "all wrapped producers and consumers that tolerate dropped calls, all limits, all polls at which the call is dropped, all functions", "why_tests_cant": "Whether a drop matters depends on the call that is pending and on whether the adaptor acts before or after the await; tests run every future to completion.", "anchors": ["ufotofu/src/producer/limit.rs:54-65", "ufotofu/src/producer/limit.rs:75-94", "ufotofu/src/consumer/limit.rs:44-52", "ufotofu/src/consumer/limit.rs:66-82", "ufotofu/src/producer/map_item.rs:32-43", "ufotofu/src/producer/map_final.rs:59-77", "ufotofu/src/consumer/map_item.rs:46-48", "ufotofu/src/lib.rs:237-252"]}
{"id": "C104", "title": "Dropped slice transfers and bounded pipes that are started again", "statement": "bulk_consume_full_slice, bulk_overwrite_full_slice and bulk_pipe_at_most count the items they have transferred, and the count is lost when the future is dropped. With producers and consumers that tolerate dropped calls (see C102), if such a call is dropped after n items, then n is smaller than what was asked for, and a call for the remaining items (the rest of the slice, or the bound minus n) has the outcome that the dropped call would have had. But starting the same call again consumes the first n items of the slice twice (bulk_consume_full_slice), fills the buffer with the items after the first n ones (bulk_overwrite_full_slice), or moves up to n items more than the bound (bulk_pipe_at_most), in each case reporting success. If bulk_pipe_at_most is dropped while consider_produced is pending, the items that were consumed last are emitted again, whatever the bound of the next call, as with bulk_pipe (C102).", "quantifier": "all producers and consumers that tolerate dropped calls, all buffers and bounds, all polls at which the call is dropped", "why_tests_cant": "The number of items that have been transferred at a drop depends on the poll and on the sizes of all exposed slices; tests run every future to completion.", "anchors": ["ufotofu/src/lib.rs:269-293", "ufotofu/src/lib.rs:506-536", "ufotofu/src/lib.rs:665-705", "ufotofu/src/lib.rs:469-489"]}
{"id": "C105", "title": "Dropped calls of the adaptors for readers and writers", "statement": "If a reader has still the same to deliver after a dropped call of read or fill_buf, then BufReaderToBulkProducer and ReaderToBulkProducer have still the same to emit after a dropped call of produce, expose_items or bulk_produce (even if the dropped read has overwritten the slots of the internal queue). WriterToBulkConsumer is different, even if a dropped write leaves the writer as it was: if a call is dropped while it flushes the internal buffer, then a first part xs of the buffer has been written and dequeued, a second part ys has been written but is still in the buffer, and a non-empty rest has not been written; the next call writes ys again, and the adaptor behaves from then on as if ys had been passed in twice. Nothing of the byte or buffer passed to the dropped call itself has been written. The same holds for dropped calls of flush and close: a close that is dropped and called again can report success although bytes have been written twice. ys is empty if the internal buffer was, or if every write of the writer takes all bytes it is offered.", "quantifier": "all readers and writers that tolerate dropped calls, whatever amounts they transfer at once; all first-in-first-out queues of positive capacity; all states of the adaptors; all polls at which the call is dropped", "why_tests_cant": "Whether and how much is written twice depends on how many bytes the writer takes at once and on the poll at which the future is dropped; the tests use writers that take everything and never drop a future.", "anchors": ["ufotofu/src/consumer/writer.rs:33-45", "ufotofu/src/consumer/writer.rs:64-78", "ufotofu/src/consumer/writer.rs:57-61", "ufotofu/src/consumer/writer.rs:86-112", "ufotofu/src/producer/reader.rs:47-111", "ufotofu/src/producer/reader.rs:144-228"]}
{"id": "C106", "title": "Dropped calls of the BulkScramblers", "statement": "A producer BulkScrambler around a producer that has still the same to emit after a dropped call: if produce, slurp or expose_items of the scrambler is dropped while produce, expose_items or slurp of the wrapped producer is pending, then the scrambler has still the same to emit. If it is dropped while consider_produced of the wrapped producer is pending, then exactly the items that have just been put into the queue are emitted twice. A consumer BulkScrambler around a consumer that has consumed what it had before after a dropped call: if consume, expose_slots, flush or close of the scrambler is dropped while expose_slots, flush or close of the wrapped consumer is pending, then nothing is lost. If it is dropped while consume or consume_slots of the wrapped consumer is pending, then exactly the items that have just been taken out of the queue are lost, although the scrambler had accepted them with success; it behaves from then on as if these items had not been passed to it. The item of the dropped call of consume is not in the queue. In particular a close that is dropped and repeated can report success without the items that it was there to write.", "quantifier": "all wrapped producers and consumers that tolerate dropped calls; all lists of operations and positive capacities; all states of the scramblers; all polls at which the call is dropped", "why_tests_cant": "What is lost or repeated depends on the operation that is performed when the future is dropped and on the contents of the queue; the fuzz tests never drop a future.", "anchors": ["ufotofu/src/producer/bulk_scrambler.rs:165-210", "ufotofu/src/producer/bulk_scrambler.rs:217-313", "ufotofu/src/consumer/bulk_scrambler.rs:160-182", "ufotofu/src/consumer/bulk_scrambler.rs:189-231", "ufotofu/src/consumer/bulk_scrambler.rs:244-287"]}
{"id": "C107", "title": "Dropped calls of Invariant", "statement": "Invariant does not check the rule that no method may be called after the future of a call was dropped: apart from close, a dropped call leaves it active, and if the wrapped producer or consumer tolerates dropped calls then so does the Invariant, so that whatever is allowed otherwise can be called next without a panic; bulk_pipe between two Invariants can be dropped while consume_slots is pending and started again, and no check notices. What has been checked before the await is not forgotten: after a dropped consider_produced or consume_slots of a items, a call for b items panics if a+b is more than what was exposed, so that the same call cannot be repeated if it was for all items; and after a dropped close every call panics, close included, though the wrapped consumer may not have been closed. All checks come before the first await: an Invariant that is not active panics when any of its methods is polled for the first time.", "quantifier": "all wrapped producers and consumers; all states of the Invariant; all amounts; all polls at which the call is dropped", "why_tests_cant": "Tests never drop a future, and there is a state for every wrapped producer or consumer and every poll.", "anchors": ["ufotofu/src/producer/invariant.rs:82-148", "ufotofu/src/consumer/invariant.rs:78-152", "ufotofu/src/lib.rs:33-33"]}
{"id": "C108", "title": "Dropped item-wise transfers that are started again", "statement": "consume_full_slice, overwrite_full_slice and pipe_at_most count the items they have moved, and the count is lost when the future is dropped. With producers and consumers that tolerate dropped calls (see C102), if consume_full_slice is dropped after n items, or overwrite_full_slice, or pipe_at_most while produce is pending, then n is smaller than what was asked for, and a call for the remaining items has the outcome that the dropped call would have had, errors included; the first n slots of the buffer of overwrite_full_slice then contain the n items. Starting the same call again consumes the first n items twice, or overwrites the first n items with the items after them, or moves up to n items more than the bound, in each case reporting success. If pipe_at_most is dropped while consume is pending, then the producer has emitted an item which the consumer has not got, and no later call moves it, whatever its bound.", "quantifier": "all producers and consumers that tolerate dropped calls; all slices and bounds; all sequences of items; all polls at which the call is dropped", "why_tests_cant": "Tests never drop a future, and the outcome depends on the poll at which it is dropped.", "anchors": ["ufotofu/src/lib.rs:136-157", "ufotofu/src/lib.rs:371-396", "ufotofu/src/lib.rs:620-658", "ufotofu/src/lib.rs:33-33"]}
{"id": "C109", "title": "Dropped encoders and decoders that are started again", "statement": "With the endian-specific encodings of integers, and consumers and producers of bytes that tolerate dropped calls (see C102): if consume of an Encoder is dropped, then some bytes of the encoding have been written, but not all, and consuming an integer afterwards writes all its bytes after them. If produce of a Decoder is dropped, then some bytes have been read, fewer than an integer has, and the decoder emits from then on what a decoder emits that begins after these bytes. Hence a dropped call shifts all later integers, unless no byte was moved; with integers of one byte no byte ever has been moved, and the call can be started again. The same holds for any number of dropped calls: the bytes that they have moved add up.", "quantifier": "all integer types and byte orders; all consumers and producers of bytes that tolerate dropped calls; all values and byte sequences; all numbers of drops, and all polls at which the calls are dropped", "why_tests_cant": "Tests never drop a future, and the outcome depends on the poll at which it is dropped.", "anchors": ["ufotofu_codec/src/adaptors/encoder.rs:39-41", "ufotofu_codec/src/adaptors/decoder.rs:43-49", "ufotofu_codec_endian/src/lib.rs:57-92", "ufotofu/src/lib.rs:33-33"]}
{"id": "C110", "title": "Pipes that are dropped while close is pending", "statement": "If pipe, bulk_pipe, pipe_at_most or bulk_pipe_at_most is dropped while close is pending, then all items of the producer have been consumed, and the producer has emitted its final value, which is lost with the future. If the consumer tolerates a dropped call of close (it is then not closed and has consumed what it had; TestConsumer does), then calling close with the final value has the outcome that the dropped pipe would have had, errors included. Starting any of the four again from a TestProducer panics, whatever the consumer, unless the bound is 0.", "quantifier": "all producers and consumers that tolerate dropped calls; all sequences of items, final values and bounds; all polls at which the call is dropped", "why_tests_cant": "Tests never drop a future, and the outcome depends on the poll at which it is dropped.", "anchors": ["ufotofu/src/lib.rs:541-574", "ufotofu/src/lib.rs:579-613", "ufotofu/src/lib.rs:620-705", "ufotofu/src/consumer/test_consumer.rs:375-382", "ufotofu/src/lib.rs:33-33"]}
{"id": "C111", "title": "Slice transfers and bounded pipes that are dropped any number of times", "statement": "Let consume_full_slice, overwrite_full_slice, their bulk versions, pipe_at_most (while produce is pending) or bulk_pipe_at_most (while expose_items or bulk_consume is pending) be dropped any number of times. If the caller learns after every drop how many items have moved, and calls with the rest of the buffer or of the bound, then no item is lost and none moves twice: the last call succeeds exactly when a single call would, with the same items consumed or produced altogether and the same error; only its count is short by what the dropped calls moved (in an error of bulk_consume_full_slice, it is at most that).", "quantifier": "all producers and consumers that tolerate dropped calls; all buffers, bounds and sequences of items; all numbers of drops, and all polls at which the calls are dropped", "why_tests_cant": "Tests never drop a future; there are infinitely many sequences of drops.", "anchors": ["ufotofu/src/lib.rs:136-157", "ufotofu/src/lib.rs:269-293", "ufotofu/src/lib.rs:371-396", "ufotofu/src/lib.rs:506-536", "ufotofu/src/lib.rs:620-658", "ufotofu/src/lib.rs:665-705", "ufotofu/src/lib.rs:33-33"]}
