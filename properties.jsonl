{"id": "C01", "title": "hamming_distance is a metric and agrees across input representations", "statement": "For bit strings of equal length, hamming_distance(a,b) is the number of positions where they differ: it is symmetric, zero exactly when a equals b, satisfies the triangle inequality, and is at most the length. For bytes it is the distance of the MSB-first bit expansions, for integer arrays the number of positions where one entry is zero and the other is not, and the distance of a concatenation is the sum of the distances. Giving the same bits as a bit string, as bytes or as an array of zeros and ones makes no difference.", "quantifier": "all bit strings / byte strings of all lengths", "why_tests_cant": "2^n pairs for every n; the metric laws range over triples of arbitrary inputs", "anchors": ["utils/bit_operations.py:hamming_distance"]}
{"id": "C02", "title": "hamming_distance refuses operands it cannot compare", "statement": "hamming_distance never truncates or pads: operands of different bit length raise, an integer that does not fit in uint_len bits (negative or >= 2^uint_len) raises, an unsupported operand type raises TypeError, and every other call returns normally.", "quantifier": "all pairs of operands (bits, bytes, int, other) and every uint_len", "why_tests_cant": "the operand space is unbounded in kind, size and uint_len", "anchors": ["utils/bit_operations.py:hamming_distance"]}
{"id": "C03", "title": "FrameHeader accepts exactly the in-range known parameters", "statement": "FrameHeader(msg_id, sys_id, comp_id, seq) succeeds iff sys_id, comp_id, seq are in 0..255 and msg_id is a message id of the dialect. On success the header is six bytes: start marker, payload length of msg_id, seq, sys_id, comp_id, msg_id, and the properties read these back. Otherwise the exception is NonUint8 for an out-of-range value and NonExistentMsdId for an in-range unknown id.", "quantifier": "all integers msg_id, sys_id, comp_id, seq (unbounded, including negative)", "why_tests_cant": "the parameters are unbounded Python ints", "anchors": ["protocol_meta/msg_header.py:FrameHeader.__init__", "protocol_meta/msg_header.py:NonExistentMsdId", "utils/custom_exceptions.py:NonUint8"]}
{"id": "C04", "title": "is_valid_header recognises exactly the headers FrameHeader can build", "statement": "For every byte string b, is_valid_header(b) is True iff there are parameters for which FrameHeader constructs a header whose buffer is b; it never raises.", "quantifier": "all byte strings of every length", "why_tests_cant": "2^48 six-byte strings and unboundedly many of other lengths", "anchors": ["protocol_meta/msg_header.py:is_valid_header", "protocol_meta/msg_header.py:FrameHeader"]}
{"id": "C05", "title": "FrameHeader.from_buffer round trip and repair", "statement": "from_buffer(h.buffer) rebuilds h for every constructible header h. For any six bytes with a known message id (or a known forced id) from_buffer yields a valid header keeping seq, sys_id and comp_id; it returns the input bytes unchanged iff they were already a valid header. Wrong length raises HeaderLength; unknown ids raise.", "quantifier": "all byte strings and all optional forced message ids", "why_tests_cant": "the set of inputs is unbounded; the round trip is over all headers", "anchors": ["protocol_meta/msg_header.py:FrameHeader.from_buffer"]}
{"id": "C06", "title": "hamming_distance_2_valid_header finds a nearest valid header", "statement": "For any six bytes and no max_len, the returned distance is the minimum, over all buffers b' with is_valid_header(b'), of the Hamming distance between b' and the input, and it is attained by a valid header carrying the returned message id; among equally near message types the one listed first in the metadata is returned; the distance is 0 iff the input is a valid header. Any other length raises HeaderLength.", "quantifier": "all byte strings; minimum over all 2^48 candidate headers", "why_tests_cant": "a minimum over every valid header for each of 2^48 inputs", "anchors": ["protocol_meta/msg_header.py:hamming_distance_2_valid_header"]}
{"id": "C07", "title": "nearest-header search honours max_len", "statement": "With max_len given, the result is the minimum over valid headers whose payload length is at most max_len, and the chosen id is one of those (or -1 if none fits), unless the received length and id bytes match a message type exactly whose length exceeds max_len. In that case the code stops scanning at that type: the result is the minimum over the fitting valid headers of the types listed before it (-1 if there is none). The expectation that the limit alone decides is refuted by a concrete input.", "quantifier": "all six-byte strings and all integers max_len", "why_tests_cant": "quantifies over all inputs and limits; a unit test samples a few", "anchors": ["protocol_meta/msg_header.py:hamming_distance_2_valid_header"]}
{"id": "C08", "title": "payload length metadata equals the wire payload length", "statement": "For every message of the dialect the payload length used to recognise frames equals the number of payload bytes the dialect's packer emits. True for every message without array fields; false for every message with an array field of length other than one, because array lengths are ignored.", "quantifier": "all messages of the dialect (whole table)", "why_tests_cant": "the claim ranges over the complete dialect table and any payload values", "anchors": ["protocol_meta/protocol_meta.py:MavlinkDialectMeta", "mavlink_utils/HC_dialect.py:mavlink_map"]}
{"id": "C09", "title": "field metadata is in wire order with the right types", "statement": "For every message, dialect metadata lists exactly the message's fields, each once, in the order and with the types in which their bytes appear on the wire.", "quantifier": "all messages of the dialect (whole table)", "why_tests_cant": "whole-table claim relating two independently generated descriptions", "anchors": ["protocol_meta/protocol_meta.py:MavlinkDialectMeta.__msg_fields", "mavlink_utils/HC_dialect.py:mavlink_map"]}
{"id": "C10", "title": "packing then decoding returns the same message", "statement": "For every message type of the dialect and all field values in range of their wire types, decoding the packed frame succeeds and returns the same message id, sequence number, system id, component id and field values; a character array comes back as its text cut at the first NUL, or as the replacement text '_XXX' when the bytes are not UTF-8.", "quantifier": "all message types, all in-range field values, all seq/system/component bytes", "why_tests_cant": "payload values range over up to 2^2040 combinations per type", "anchors": ["mavlink_utils/HC_dialect.py:MAVLink_message.pack", "mavlink_utils/HC_dialect.py:MAVLink.decode"]}
{"id": "C11", "title": "decode rejects every burst error of up to 16 bits", "statement": "Take a v1 frame that decodes successfully. Any different byte string of the same length that keeps its marker, id and checksum bytes and whose transmitted bits differ only inside one window of 16 consecutive bits is rejected with MAVError. So is any string that differs only in the checksum bytes, and any string obtained by inverting one single bit anywhere, except a frame with a 208-byte payload whose id byte changes between 4 and 6.", "quantifier": "all accepted frames, all error patterns confined to the window", "why_tests_cant": "all frames times all error patterns at all positions", "anchors": ["mavlink_utils/HC_dialect.py:MAVLink.decode"]}
{"id": "C12", "title": "decode fails only with MAVError", "statement": "For every non-empty byte array decode either returns a message or raises MAVError; no other exception escapes. On the empty array it raises IndexError.", "quantifier": "all byte strings", "why_tests_cant": "unbounded input space and every error branch", "anchors": ["mavlink_utils/HC_dialect.py:MAVLink.decode", "mavlink_utils/HC_dialect.py:MAVError"]}
{"id": "C13", "title": "decode accepts exactly the well-formed frames", "statement": "A byte string starting with the v1 marker is accepted iff it has at least 8 bytes, its length byte equals its size minus 8, its id byte is in the dialect and its trailing little-endian 16-bit checksum is the X.25 CRC of bytes 1..n-2 followed by the message's extra byte.", "quantifier": "all byte strings starting with the v1 marker", "why_tests_cant": "characterises acceptance over the whole input space", "anchors": ["mavlink_utils/HC_dialect.py:MAVLink.decode"]}
{"id": "C14", "title": "stream parser results do not depend on how bytes are chunked", "statement": "With robust parsing on, feeding a byte stream in any chunks through parse_buffer returns, in total, the same message sequence, and the frames returned concatenated with the unconsumed bytes are exactly the input: no byte is lost, duplicated or reordered. Packed messages sent back to back come out as exactly those messages.", "quantifier": "all byte streams and all ways to cut them into chunks", "why_tests_cant": "exponentially many chunkings of unboundedly long streams", "anchors": ["mavlink_utils/HC_dialect.py:MAVLink.parse_char", "mavlink_utils/HC_dialect.py:MAVLink.parse_buffer", "mavlink_utils/HC_dialect.py:MAVLink.decode"]}
{"id": "C15", "title": "the sender numbers frames consecutively modulo 256", "statement": "After any sequence of sends the i-th frame written carries sequence byte (start+i) mod 256, total_packets_sent is the number of sends and total_bytes_sent the number of bytes written.", "quantifier": "all sequences of sends of any length", "why_tests_cant": "unbounded histories", "anchors": ["mavlink_utils/HC_dialect.py:MAVLink.send", "mavlink_utils/HC_dialect.py:MAVLink_message.pack"]}
{"id": "C16", "title": "every message reported by segmentation is genuine", "statement": "For every (index, id) in the structure returned by segment_buffer, a valid header with that id stands at index and the bytes from there to the end of the frame are accepted by the parser. With the dialect's decoder as the parser the whole frame also fits in the buffer.", "quantifier": "all buffers and all parsers", "why_tests_cant": "all byte strings of all lengths; parser arbitrary", "anchors": ["inference/buffer_segmentation.py:BufferSegmentation.segment_buffer"]}
{"id": "C17", "title": "reported messages are in order and never overlap", "statement": "The structure returned by segment_buffer lists start indices in increasing order and the byte ranges of different messages are disjoint.", "quantifier": "all buffers and all parsers", "why_tests_cant": "pairs of messages in arbitrary buffers", "anchors": ["inference/buffer_segmentation.py:BufferSegmentation.segment_buffer"]}
{"id": "C18", "title": "labels and bit validity describe exactly the reported messages", "statement": "segment_buffer labels byte i HEADER, PAYLOAD or CHECKSUM exactly when i lies in the corresponding part of a reported message and UNKNOWN when no reported message covers it; bit validity has eight entries per byte, 1 on covered bytes and 0 elsewhere.", "quantifier": "all buffers, all parsers, all byte and bit positions", "why_tests_cant": "per-position claim on arbitrary buffers", "anchors": ["inference/buffer_segmentation.py:BufferSegmentation.segment_buffer", "inference/buffer_segmentation.py:MsgParts"]}
{"id": "C19", "title": "segmentation misses nothing: it is the greedy left-to-right scan", "statement": "A position is reported iff a valid frame (valid header, accepted by the parser) starts there and the position is not inside a previously reported message. In particular no valid frame starts at a byte labelled UNKNOWN.", "quantifier": "all buffers, all parsers, all positions", "why_tests_cant": "completeness over every position of every buffer", "anchors": ["inference/buffer_segmentation.py:BufferSegmentation.segment_buffer"]}
{"id": "C20", "title": "segment_buffer never raises", "statement": "With the dialect's decoder as parser, segment_buffer returns normally for every byte string, including empty ones and ones shorter than a frame, and the label array has one entry per byte. A parser failing with anything but MAVError makes it raise that error.", "quantifier": "all byte strings", "why_tests_cant": "unbounded input space", "anchors": ["inference/buffer_segmentation.py:BufferSegmentation.segment_buffer", "mavlink_utils/HC_dialect.py:MAVLink.decode"]}
{"id": "C21", "title": "back-to-back packed messages are all recovered", "statement": "Segmenting the concatenation of any list of packed messages without array fields returns exactly their ids at their offsets, with no UNKNOWN byte and every bit valid.", "quantifier": "all lists of array-free messages with arbitrary field values", "why_tests_cant": "lists of arbitrary length over an astronomically large value space", "anchors": ["inference/buffer_segmentation.py:BufferSegmentation.segment_buffer", "mavlink_utils/HC_dialect.py:MAVLink_message.pack"]}
{"id": "C22", "title": "segmentation after a recovered prefix is independent of it", "statement": "If a buffer a is fully recovered then segmenting a followed by any b gives the messages of a followed by the messages of b shifted by len(a): damage after a frame boundary never affects what precedes it, nor does a good prefix change what is found after it.", "quantifier": "all fully recovered prefixes and arbitrary suffixes", "why_tests_cant": "all pairs of buffers", "anchors": ["inference/buffer_segmentation.py:BufferSegmentation.segment_buffer"]}
{"id": "C23", "title": "messages with array fields are never recovered", "statement": "Whatever its field values, a packed message whose type has an array field (of length > 1) is not reported at its own offset by segment_buffer, although the decoder accepts it. (The user-level expectation that every well-formed frame of the dialect is found is therefore false.)", "quantifier": "all messages of the dialect with array fields, all values, any surrounding bytes", "why_tests_cant": "ranges over all values of 38 message types in any context", "anchors": ["protocol_meta/protocol_meta.py:MavlinkDialectMeta.__msg_len", "inference/buffer_segmentation.py:BufferSegmentation.segment_buffer"]}
{"id": "C24", "title": "bad parts are exactly the maximal unknown runs", "statement": "bad_buffer_idx returns None iff no byte is UNKNOWN, and otherwise the increasing list of maximal runs of UNKNOWN labels as (start, end); bad_buffer_parts maps exactly those starts to the corresponding buffer slices.", "quantifier": "all label arrays of the buffer's length and all buffers", "why_tests_cant": "all label sequences of every length", "anchors": ["inference/buffer_segmentation.py:BufferSegmentation.bad_buffer_parts", "inference/buffer_segmentation.py:BufferSegmentation.bad_buffer_idx"]}
{"id": "C25", "title": "get_msg_fields describes every recovered message", "statement": "For a buffer with at least one recovered message, get_msg_fields returns a description listing, per message in order, its six header bytes as they stand in the buffer, one entry per field in wire order with the field's type, and 'crc'; the dictionary maps each field name to its value in the last message of that type. With no recovered message the result is a bare empty dict rather than a pair.", "quantifier": "all buffers", "why_tests_cant": "unbounded buffers", "anchors": ["inference/buffer_segmentation.py:BufferSegmentation.get_msg_fields"]}
{"id": "C26", "title": "BufferStructure registers only adhering buffers", "statement": "After any history of register_buffer calls reception_count equals the number of stored buffers, the stored buffers are exactly those accepted, in order, and each of them carries the structure's message id at each index; a rejected call changes nothing. Two structures are equal exactly when they hold the same messages at the same indices; equality ignores the history.", "quantifier": "all structures, all histories of registrations", "why_tests_cant": "unbounded histories of calls including failing ones", "anchors": ["inference/buffer_segmentation.py:BufferStructure"]}
{"id": "C27", "title": "FieldModel keeps exactly the most recent window", "statement": "After any sequence of add_sample calls (scalars or lists) the stored samples are the last window_size of all samples ever added (all of them when window_size is None), in order, and model_size is their number. window_size=0 keeps everything.", "quantifier": "all sequences of calls, all window sizes", "why_tests_cant": "unbounded histories", "anchors": ["inference/statistical_models.py:FieldModel.add_sample", "inference/statistical_models.py:FieldModel.model_size"]}
{"id": "C28", "title": "FieldModel statistics are never stale", "statement": "In any interleaving of additions and reads, every read of mean, std, classify_value or bitwise_mean reflects the samples stored at that moment (0 and 0 before the first sample): the cache is invisible.", "quantifier": "all interleavings of writes and reads", "why_tests_cant": "all schedules of operations", "anchors": ["inference/statistical_models.py:FieldModel._update", "inference/statistical_models.py:FieldModel.mean", "inference/statistical_models.py:FieldModel.std"]}
{"id": "C29", "title": "classify_value, cdf and pdf are probabilities of the normal distribution of the samples", "statement": "classify_value returns a probability in [0,1]; it is 1 at the mean, symmetric around it, non-increasing in the distance from it, and for a degenerate model is 1 exactly at the mean and 0 elsewhere. If the samples kept are not all the same it is the probability that a normally distributed reading with their mean and deviation is at least as far from the mean as the value; cdf is the probability that such a reading is at most the value, and pdf its density.", "quantifier": "all histories of a field model, all values", "why_tests_cant": "real-valued inputs and arbitrary sample lists", "anchors": ["inference/statistical_models.py:FieldModel.classify_value"]}
{"id": "C30", "title": "BufferModel counts buffers and windows every field", "statement": "After adding n buffers of one structure, model_size is min(n, window) (n without window), a failed add changes no count, and each field's model holds the last window of the values that field took, in order.", "quantifier": "all sequences of added buffers, all windows", "why_tests_cant": "unbounded histories", "anchors": ["inference/statistical_models.py:BufferModel.add_buffer", "inference/statistical_models.py:BufferModel.add_sample"]}
{"id": "C31", "title": "the bit-to-field map is exact", "statement": "For any list of non-overlapping in-range array-free messages, unpack_structure maps a bit to field index j iff the bit lies in the bytes of the j-th field (header fields first, then payload fields in wire order, messages in order), and to -1 iff it lies in a checksum or outside all messages; names and types lists have one entry per field. With array messages it raises.", "quantifier": "all structures, all buffer lengths, all bit positions", "why_tests_cant": "all structures over the dialect and all positions", "anchors": ["inference/statistical_models.py:BufferModel.unpack_structure"]}
{"id": "C32", "title": "unpack_values reads exactly the bytes of each field", "statement": "For in-range array-free structures unpack_values returns one value per field listed by unpack_structure, the j-th value being the little-endian interpretation of the bytes of the j-th field; a bit array and the bytes it packs to (MSB first) give the same values; a truncated message raises.", "quantifier": "all buffers and structures", "why_tests_cant": "all byte contents and structures", "anchors": ["inference/statistical_models.py:BufferModel.unpack_values"]}
{"id": "C33", "title": "num2bits inverts unpacking for integer fields", "statement": "For every integer field type and in-range integer value, num2bits gives the MSB-first bits of its little-endian bytes, so a constant field is reproduced bit for bit; negative means of unsigned types are clamped to 0; rounding is to nearest (ties to even); out-of-range values raise; 'char' always raises.", "quantifier": "all field types and all numeric values", "why_tests_cant": "all 2^64 values and all rational means", "anchors": ["inference/statistical_models.py:num2bits", "inference/statistical_models.py:FieldModel.bitwise_mean"]}
{"id": "C34", "title": "saving and loading a BufferModel preserves it", "statement": "load(save(m)) has, for every field, the same type, window and samples, hence the same mean/std/predictions, and the same window size, model size and buffer description (up to tuples becoming lists and the order of fields becoming alphabetical).", "quantifier": "all models with numeric samples", "why_tests_cant": "all models; a round trip", "anchors": ["inference/statistical_models.py:BufferModel.save", "inference/statistical_models.py:BufferModel.load"]}
{"id": "C35", "title": "find_damaged_fields names exactly the fields containing errors", "statement": "find_damaged_fields returns, in increasing order of error position, the (name, index) of the field containing each error bit, skipping checksum, gap and out-of-range bits.", "quantifier": "all error index lists and structures", "why_tests_cant": "all index sets and structures", "anchors": ["inference/statistical_models.py:BufferModel.find_damaged_fields"]}
{"id": "C36", "title": "predict scores exactly the bits of modelled fields", "statement": "predict gives every bit of a modelled field that field's score and leaves all other bits NaN; per-field entries are in wire order; fields without a model yield no entry (None).", "quantifier": "all buffers, structures and models", "why_tests_cant": "all buffers and structures", "anchors": ["inference/statistical_models.py:BufferModel.predict"]}
{"id": "C37", "title": "cluster counts always add up", "statement": "For a cluster started from a buffer containing both symbols, after any sequence of additions and merges of such clusters the per-position counts of zeros and ones are exactly the numbers of zeros/ones among the samples absorbed, they sum to n_samples, and dist rows are probability vectors. A constant first buffer breaks this: adding to its cluster raises IndexError and merging it into another cluster counts each of its bits both as a zero and as a one.", "quantifier": "all histories of additions and merges", "why_tests_cant": "unbounded histories", "anchors": ["inference/clustering.py:Cluster"]}
{"id": "C38", "title": "classifier protocol: training, cluster count, labels", "statement": "The first min_data_size-1 calls of classify return -1; every later call returns a label in range(number of clusters); the number of clusters from then on is min(k, min_data_size-1), uids are 0..n-1 in list order, and the n_samples of all clusters add up to the number of calls. Holds for any distance values, NaN included. min_data_size<=1 or k=0 makes the first non-training call raise.", "quantifier": "all sequences of buffers, all parameters, arbitrary metric values", "why_tests_cant": "unbounded histories and arbitrary floating point behaviour", "anchors": ["inference/clustering.py:BufferClassifier.classify", "inference/clustering.py:BufferClassifier.merge_clusters"]}
{"id": "C39", "title": "classify selects a best cluster and updates only it", "statement": "After training, the chosen cluster has the largest log-likelihood (smallest Hamming distance) among all clusters, the first such one on ties, and only that cluster absorbs the sample.", "quantifier": "all classifier states and buffers", "why_tests_cant": "all states and buffers", "anchors": ["inference/clustering.py:BufferClassifier.classify"]}
{"id": "C40", "title": "hard_bits is the majority bit", "statement": "A cluster's hard_bits entry is 1 iff at least half / most of its samples had 1 there. False: the code compares a count with a probability, so the entry is 1 iff any sample had a 1.", "quantifier": "all clusters", "why_tests_cant": "all sample histories", "anchors": ["inference/clustering.py:Cluster.hard_bits"]}
{"id": "C41", "title": "OnlineDude statistics are exact context counts", "statement": "For k>=1, processing a sequence of in-range symbols echoes the first k, and at step i uses exactly the number of times each symbol has followed the k symbols preceding position i, up to and including i. reset restores the initial state; out-of-range symbols raise and change nothing. For k=0 the context silently becomes length one.", "quantifier": "all sequences, all k, all alphabets", "why_tests_cant": "unbounded sequences", "anchors": ["inference/dude.py:OnlineDude.denoise_sample", "inference/dude.py:OnlineDude.denoise_sequence", "inference/dude.py:OnlineDude.reset"]}
{"id": "C42", "title": "hard DUDE decision is the binary threshold rule", "statement": "For a binary symmetric channel with flip probability f < 1/2 and Hamming loss, the hard decision keeps an observed 0 iff m(0)*((1-f)^2+f^2) >= 2f(1-f)*m(1) and an observed 1 iff m(1)*((1-f)^2+f^2) > 2f(1-f)*m(0) (ties resolved to 0), where m are the context counts, for the online and the two-sided denoiser alike; with f=0 it is the identity.", "quantifier": "all counts and all f in (0,1/2)", "why_tests_cant": "real parameter and unbounded counts", "anchors": ["inference/dude.py:OnlineDude.denoise_sample", "inference/dude.py:DUDE.denoise_sequence"]}
{"id": "C43", "title": "soft DUDE outputs are probability vectors", "statement": "For a binary symmetric channel with f in [0,1/2) the smoothed posterior has non-negative entries summing to one, for all context counts that include the current observation. The code's attempt to preserve the total count while smoothing has no effect.", "quantifier": "all counts with at least one observation, all f", "why_tests_cant": "real parameter and unbounded counts", "anchors": ["inference/dude.py:OnlineDude.smooth_posterior", "inference/dude.py:DUDE.smooth_posterior"]}
{"id": "C44", "title": "DUDE uses exact two-sided context counts and echoes the borders", "statement": "denoise_sequence leaves the first and last k symbols unchanged, and every interior decision uses exactly the counts, over the whole sequence, of the symbols occurring inside the same two-sided context. denoise_sample always raises AttributeError.", "quantifier": "all sequences and all k", "why_tests_cant": "unbounded sequences", "anchors": ["inference/dude.py:DUDE.denoise_sequence", "inference/dude.py:DUDE.denoise_sample"]}
{"id": "C45", "title": "EMLE model is the windowed, channel-corrected frequency", "statement": "After n updates the model data are the last window_length observations (all when 0), model_size is min(n, window_length) (n when 0), and p1 is the frequency of ones in that window passed through the inverse of the binary symmetric channel and clipped to [0,1]; when the frequency is exactly that of a channel output, p1 is the input probability.", "quantifier": "all update histories and windows, all f in [0,1/2)", "why_tests_cant": "unbounded histories, real parameters", "anchors": ["inference/entropy_mle.py:EMLE.update_model"]}
{"id": "C46", "title": "EMLE denoises without touching its input and changes only structural bits", "statement": "denoise_buffer does not modify the caller's array, adjusts only positions with model entropy below the threshold, leaves everything unchanged with fewer than two samples, reports as cost the number of hard bits changed, and denoise_sequence is the fold of denoise_buffer over the rows.", "quantifier": "all states, buffers and parameters", "why_tests_cant": "all histories of buffers", "anchors": ["inference/entropy_mle.py:EMLE.predict", "inference/entropy_mle.py:EMLE.denoise_buffer", "inference/entropy_mle.py:EMLE.denoise_sequence"]}
{"id": "C47", "title": "prob returns the empirical distribution over the sorted alphabet", "statement": "For any non-empty integer data the alphabet is the strictly increasing list of values occurring, entry (r,a) is the relative frequency of the a-th letter in row r, entries are in [0,1] and each row sums to one. Binary data yield two columns iff both symbols occur, so column 1 may not exist.", "quantifier": "all 1-D and 2-D integer arrays", "why_tests_cant": "arrays of all shapes and contents", "anchors": ["utils/information_theory.py:prob_with_alphabet", "utils/information_theory.py:prob"]}
{"id": "C48", "title": "entropy is between 0 and log2 of the alphabet size", "statement": "For every probability vector entropy is >= 0, with equality iff it is a point mass, and <= log2(n), with equality iff uniform; rows of a 2-D array are treated independently; other dimensions raise.", "quantifier": "all probability vectors of all lengths", "why_tests_cant": "real-valued vectors of all dimensions", "anchors": ["utils/information_theory.py:entropy"]}
{"id": "C49", "title": "Hellinger distance is a bounded symmetric separation measure", "statement": "For probability vectors of equal length the Hellinger distance is defined (non-negative radicand), in [0,1], symmetric and zero iff the vectors are equal; mismatched dimensions raise.", "quantifier": "all pairs of probability vectors", "why_tests_cant": "real-valued vectors of all dimensions", "anchors": ["utils/information_theory.py:hellinger"]}
{"id": "C50", "title": "typical set bounds are ordered", "statement": "typical_set_cardinality raises iff n<=0, eps<=0 or no distribution/entropy is given; otherwise lower bound < upper bound, and the given entropy takes precedence.", "quantifier": "all n, eps, entropies", "why_tests_cant": "real parameters", "anchors": ["utils/information_theory.py:typical_set_cardinality"]}
{"id": "C51", "title": "mixture model parameters stay probabilistic", "statement": "After any number of EM iterations of BMM on binary data, responsibilities are non-negative with rows summing to one, mixing weights are non-negative and sum to one, and component means are in [0,1]; predict returns a component index in range with maximal responsibility.", "quantifier": "all binary data sets, all initial parameters, all iteration counts", "why_tests_cant": "unbounded iterations over real parameters", "anchors": ["inference/bmm.py:BMM.fit", "inference/bmm.py:BMM.get_responsibilities", "inference/bmm.py:BMM.get_mu", "inference/bmm.py:BMM.get_pi", "inference/bmm.py:BMM.predict"]}
{"id": "C52", "title": "EM iterations never decrease the likelihood", "statement": "One E-step followed by one M-step never decreases the mean log-likelihood of 0/1 training data as long as the numerical floor on the means is inactive (on features that are not constant over the data); without that condition it loses at most 2e-15 per feature.", "quantifier": "all data sets and all current parameters", "why_tests_cant": "monotonicity over real parameter space", "anchors": ["inference/bmm.py:BMM.fit", "inference/bmm.py:BMM.get_log_likelihood"]}
{"id": "C53", "title": "the entropy decoder's model is the window of its own cluster", "statement": "After any sequence of decode_buffer calls, the data kept for cluster c are exactly the last window_length bit vectors learned while the label was c, in order; other clusters are untouched by an update; with a predefined model nothing is ever learned and the distributions never change.", "quantifier": "all sequences of received words, all LDPC decoder behaviours", "why_tests_cant": "unbounded histories and arbitrary decoder outputs", "anchors": ["decoders/classifiying_decoder.py:ClassifyingEntropyDecoder.update_model", "decoders/classifiying_decoder.py:ClassifyingEntropyDecoder.decode_buffer"]}
{"id": "C54", "title": "during classifier training decoding is plain LDPC decoding", "statement": "While the classifier returns a negative label the classifying decoders hand the unmodified channel word to the LDPC decoder and return its result. The entropy decoder learns nothing then; for the MAVLink decoder that is not so: label -1 indexes the last cluster, so the last cluster's structure and the field model are updated.", "quantifier": "all states in the training phase and all received words", "why_tests_cant": "all histories", "anchors": ["decoders/classifiying_decoder.py:ClassifyingEntropyDecoder.decode_buffer", "decoders/mavlink_decoder.py:MavlinkRectifyingDecoder.decode_buffer"]}
{"id": "C55", "title": "model influence is bounded and confined to structural bits", "statement": "The word handed to the LDPC decoder equals the channel word plus the model LLR, which is zero outside low-entropy model bits, clipped to plus/minus clipping_factor times the largest channel LLR. Because the bound uses the largest LLR and not the largest magnitude, a word of only negative LLRs collapses to a single value.", "quantifier": "all states, all received words", "why_tests_cant": "real-valued words of any length", "anchors": ["decoders/classifiying_decoder.py:ClassifyingEntropyDecoder.decode_buffer", "decoders/classifiying_decoder.py:ClassifyingEntropyDecoder.model_prediction"]}
{"id": "C56", "title": "round-robin labels when clustering is off", "statement": "With clustering disabled and more than one cluster, the i-th decoded buffer (from 0) gets label i mod n_clusters; with one cluster the label is always 0. For the MAVLink decoder this requires one segmentation iteration per buffer: with more, failed iterations advance the index too.", "quantifier": "all sequences of buffers", "why_tests_cant": "unbounded histories", "anchors": ["decoders/classifiying_decoder.py:ClassifyingEntropyDecoder.decode_buffer", "decoders/mavlink_decoder.py:MavlinkRectifyingDecoder.decode_buffer"]}
{"id": "C57", "title": "the MAVLink decoder fixes each cluster's structure once", "statement": "The structure of a cluster is set by the first successfully decoded buffer of that cluster, to the segmentation of its information bytes, and never changes afterwards; with a predefined model nothing is learned. Structures given by the caller replace the ones known and stay; a list of another length than the number of clusters raises and changes nothing.", "quantifier": "all sequences of received words and arbitrary LDPC outcomes", "why_tests_cant": "unbounded histories", "anchors": ["decoders/mavlink_decoder.py:MavlinkRectifyingDecoder.decode_and_update_model"]}
{"id": "C58", "title": "turbo decoding reports the decoder that succeeded", "statement": "decode_buffer returns success iff one of the two constituent decoders succeeds within max_iter rounds, the estimate and index returned are those of the first decoder to succeed, and on failure those of the last run of the second decoder; max_iter=0 raises. Each decoder's input is the channel word plus the extrinsic information of the other. An exception of either decoder in any round reaches the caller, and no decoder runs after the run that succeeded or raised.", "quantifier": "all constituent decoders, all words, all max_iter", "why_tests_cant": "arbitrary decoders and iteration counts", "anchors": ["decoders/turbo.py:TurboDecoder.decode_buffer"]}
{"id": "C59", "title": "confusion counts are consistent", "statement": "TP + FP is the number of distinct predicted positives, TP + FN the number of distinct actual positives, FP + TN the given number of negatives, and TP, FP, FN count exactly the common, predicted-only and actual-only indices.", "quantifier": "all index lists (with repetitions) and all negative counts", "why_tests_cant": "unbounded lists", "anchors": ["decoders/mavlink_decoder.py:confusion"]}
{"id": "C60", "title": "track_errors counts residual errors", "statement": "track_errors returns the number of positions where the estimate differs from the transmitted word reconstructed from the received word and the error positions; it is zero iff the estimate is the transmitted word.", "quantifier": "all words, error sets and estimates", "why_tests_cant": "unbounded words", "anchors": ["decoders/turbo.py:track_errors"]}
{"id": "C61", "title": "bit error rate", "statement": "ber is the fraction of differing bits, in [0,1], zero iff equal - for signed integer arrays; for unsigned byte arrays 0-1 wraps to 255, so the result can exceed 1.", "quantifier": "all bit arrays of equal length", "why_tests_cant": "all arrays", "anchors": ["utils/performance_analysis.py:ber"]}
{"id": "C62", "title": "stats are consistent with the confusion matrix", "statement": "Recall, precision and F1 returned by stats are the usual ratios in [0,1] when every class has samples, F1 is the harmonic mean, and accuracy is trace over total. The 'perfect score when the class never occurs' branches are unreachable.", "quantifier": "all confusion matrices", "why_tests_cant": "all matrices of all sizes", "anchors": ["utils/performance_analysis.py:stats"]}
{"id": "C63", "title": "Markov samples follow the transition matrix", "statement": "Sample i is drawn from the row selected by the preceding `order` samples. False: the code reads the last `order` entries of the (still zero) output array, so nearly every sample is drawn from the all-zeros row.", "quantifier": "all transition matrices, initial states, lengths and random outcomes", "why_tests_cant": "all lengths and random choices", "anchors": ["utils/random_sources.py:generate_markov_samples"]}
{"id": "C64", "title": "an entropy bitwise decoder's model is frozen when predefined and otherwise the window of recovered words", "statement": "The distribution an EntropyBitwiseDecoder or EntropyBitwiseFlippingDecoder uses is either the predefined one, unchanged forever, or the empirical distribution of the last window_length learned words, where the learned words are exactly the model bits of the returned estimates that consist of complete MAVLink messages only. Learning works only if the first model_length codeword bits are information bits. The soft decoder rectifies exactly the low-entropy positions; the flipping decoder does so only when the model bits are the first codeword bits, since it looks values up by codeword index. A predefined model is cut to the model bits of the code; one that is shorter than these makes every prediction raise an IndexError.", "quantifier": "all histories of received words", "why_tests_cant": "unbounded histories", "anchors": ["decoders/entropy_bitwise_decoder.py:EntropyBitwiseDecoder", "decoders/entropy_bitwise_decoder.py:EntropyBitwiseFlippingDecoder"]}
{"id": "C65", "title": "Bayesian bit counters stay positive and bounded below", "statement": "In EntropyBitwiseWeightedDecoder's Bayesian update the counts of ones and zeros of every model bit stay at least one; the total at the first model bit never falls below min(window_length, learned words + 2), in particular rescaling does not take it below the configured minimum; rescaling keeps the proportion of ones to zeros at every bit; until 2*window_length-2 words are learned the counts are exact. The configured maximum is not enforced: the total can grow without bound and rescaling can exceed it, and the minimum is not kept at other bits.", "quantifier": "all histories of observed bits", "why_tests_cant": "unbounded histories", "anchors": ["decoders/entropy_bitwise_decoder.py:EntropyBitwiseWeightedDecoder.update_model_a", "decoders/entropy_bitwise_decoder.py:EntropyBitwiseWeightedDecoder.update_model_b"]}
{"id": "C66", "title": "chunked encoding covers all data", "statement": "Encoding data in blocks emits one codeword per block of k bits, the blocks in order contain all the data, and only the last is padded - for buffers whose length is not exactly k; a buffer of exactly k bits makes the call raise.", "quantifier": "all data lengths and block sizes", "why_tests_cant": "all lengths", "anchors": ["runs/HC_eilat_July_2018/ecncoding_data.py:encode_data"]}
{"id": "C67", "title": "relabelling of cluster labels", "statement": "relabel returns a total map on the predicted labels that maps all but one of them to a true label they agree with most often, and undoes a pure renaming of the labels. It is not one-to-one in general: two clusters may be mapped to the same true label; with at most two classes it is.", "quantifier": "all label sequences", "why_tests_cant": "all sequences", "anchors": ["runs/clsutering_analysis/functions.py:relabel"]}
{"id": "C68", "title": "what the combined decoders learn, hand over, and when they raise", "statement": "CombinedDecoder gives its entropy model the whole codeword, so no call with a non-negative label returns unless model_length equals the codeword length (it raises IncorrectBufferLength, with the MAVLink part already updated), whereas the unified decoder gives it the first model_length bits and then returns exactly when its window holds both letters. With bits that fit, the entropy model of a cluster is the window of those words and its distribution and entropies are theirs; the MAVLink part learns as in C57; a call with a negative label learns nothing and hands the received word over as it is; other calls hand over the MAVLink prediction plus, at low-entropy model bits, the clipped ratio of the entropy model. If the unified decoder has fewer model bit indices than model_length, each cluster gets at most one returning call.", "quantifier": "all received words, parameters, LDPC decoders, classifiers and histories of calls", "why_tests_cant": "all histories and parameters", "anchors": ["decoders/combined_decoder.py:CombinedDecoder", "decoders/combined_unified_decoder.py"]}
{"id": "C69", "title": "bitwise_model_mean is the bit pattern of the field means", "statement": "For non-overlapping array-free messages inside the buffer all of whose fields have been seen, the requested bits inside a field are the bits of that field's mean stored in the field's type and bits outside all fields are 0; a model that has only seen copies of one buffer reproduces every message bit of it (same-named fields being equal); a field never seen makes the call raise.", "quantifier": "all add_buffer histories, structures and bit indices", "why_tests_cant": "ranges over all histories, all message layouts and all field values", "anchors": ["inference/statistical_models.py:BufferModel.bitwise_model_mean", "inference/statistical_models.py:num2bits"]}
{"id": "C70", "title": "training merges the closest pair", "statement": "While there are more than k clusters, merge_clusters merges the pair of clusters with the smallest weighted distance, the first such pair in lexicographic order of positions; the later cluster of the pair is removed and its counts are added to the earlier one; all others stay unchanged and in order.", "quantifier": "all cluster lists, all distances taking values in a linear order", "why_tests_cant": "ranges over all cluster lists and distance values", "anchors": ["inference/clustering.py:BufferClassifier.merge_clusters"]}
{"id": "C71", "title": "the weighted decoder's good model learns recovered words only, its other model every word", "statement": "After any history EntropyBitwiseWeightedDecoder's first model is the one learned from the recovered words and its second the one learned from a word per returning call (the estimate if the first attempt decoded or the estimate is made of messages, else the hard decision on the received word); with the MLE estimator each is the distribution of the last window_length words. The second attempt gets the received word plus confidence times model ratio at low-entropy bits, all clipped to clipping_factor times the largest received value (so an all-negative word collapses to one value); confidence scheme 2 behaves as scheme 0; scheme 4 raises while the good model has learned nothing.", "quantifier": "all histories of received words, all LDPC decoders and parameters", "why_tests_cant": "unbounded histories, arbitrary LDPC behaviour and real-valued words", "anchors": ["decoders/entropy_bitwise_decoder.py:EntropyBitwiseWeightedDecoder.decode_buffer", "decoders/entropy_bitwise_decoder.py:EntropyBitwiseWeightedDecoder.model_prediction"]}
{"id": "C72", "title": "DUDE decoder: what is added to a word and what is kept", "statement": "After any sequence of decode_buffer calls, a word decoded with label l is handed to the LDPC decoder with, on each of the first model_length bits, the weighted log-likelihood ratio of the probability that the bit was one, computed only from the received values of that bit in the earlier words with label l (channel-corrected counts of what followed the same context), clipped at clipping_factor times the largest received magnitude; the bits reported as denoised are the hard decisions on that. The first word of a cluster is not changed, fewer words than the context length never flip a bit, a negative label passes the word through unchanged, labels go round robin without clustering. Expectations that fail: the caller's array is modified in place, and with model bits that are not the first codeword bits no call using the model returns.", "quantifier": "all decoder parameters (flip probability in [0,1/2), context length at least 1), all classifiers and LDPC decoders, all histories of words, all next words", "why_tests_cant": "The claim ranges over unbounded histories of real-valued words and over arbitrary classifiers and LDPC decoders; a test sees a handful of words of one code.", "anchors": ["decoders/classifying_DUDE_decoder.py:ClassifyingDudeDecoder.decode_buffer", "decoders/classifying_DUDE_decoder.py:ClassifyingDudeDecoder.model_prediction", "inference/dude.py:OnlineDude"]}
{"id": "C73", "title": "Debug analysis: confusion tables of flagged fields and forced bits", "statement": "For distinct error positions, the debug analysis reports over all bits of the word how many forced bits, and how many forced bits whose model value differs from the received one, were and were not erroneous, and the share of forced bits whose model value differs from the transmitted one, so that the forced bits wrong afterwards are those wrong before less the erroneous ones flipped plus the correct ones flipped. For the flagged fields it reports the number of fields and damaged fields and, for both flags, correct true positives, false positives and false negatives; positions outside the word raise. Expectation that fails: the number of undamaged fields and the true negatives are computed from the number of errors, not of damaged fields, so both tables are right exactly when no field contains two errors.", "quantifier": "all buffer structures with messages inside the buffer that do not overlap, all sets of flagged fields and forced bits, all error positions, all received words and model values", "why_tests_cant": "The tables must be right for every combination of flagged and damaged fields; tests check one buffer, usually with one error per field, where the wrong formula agrees with the right one.", "anchors": ["decoders/mavlink_decoder.py:confusion", "decoders/mavlink_decoder.py:MavlinkRectifyingDecoder.classifier_analysis", "decoders/mavlink_decoder.py:MavlinkRectifyingDecoder.forcing_analysis"]}
{"id": "C74", "title": "Calls of the MAVLink decoder with debug on", "statement": "With debug on, a call runs the LDPC decoder on the same inputs, returns the same values and leaves the same structures, samples and hidden states as with debug off, or raises; what it reports is the analysis of C73 for the flagged fields of the structure of the returned cluster and the bits forced in the last prediction, with the model's values after the call. Expectation that fails: a call for a cluster whose structure was not known before the call never returns, so without set_buffer_structures the first call for every cluster raises.", "quantifier": "all decoder states and parameters, classifiers, LDPC decoders, received words and error positions", "why_tests_cant": "The claim compares two whole runs for every state and every external decoder, and says no input makes the first call return.", "anchors": ["decoders/mavlink_decoder.py:MavlinkRectifyingDecoder.decode_buffer", "decoders/mavlink_decoder.py:MavlinkRectifyingDecoder.model_prediction"]}
{"id": "C75", "title": "Signed frames", "statement": "Without a secret key, decode treats every frame as without signing support. With a key, decode returns exactly for the frames that plain decode accepts and that are either flagged as signed, carry the truncated digest of key and frame, and have a timestamp newer than their stream's recorded one (or, for a new stream, at most a minute behind the receiver's clock), or whose message id the unsigned callback lets through; the returned message is plain decode's and is marked signed with its link id exactly in the first case; otherwise a non-empty frame raises MAVError. The clock is the largest timestamp of a frame accepted as signed, and the counters add up. A sender with a key appends 13 bytes and advances its timestamp by one. Expectations that fail: a stream's recorded timestamp never moves after its first frame, so an accepted frame can be replayed any number of times; a forged frame without a valid signature fixes the timestamp of a new stream and so shuts out its genuine frames for ever; the version-1 frames produced when signing outgoing messages are refused by every receiver.", "quantifier": "all keys, digest functions, receiver states, frames and histories of frames; all messages of the dialect", "why_tests_cant": "Acceptance must hold for every frame and history, and the failures are about everything an attacker may send in between; tests replay a few frames.", "anchors": ["mavlink_utils/HC_dialect.py:MAVLink.decode", "mavlink_utils/HC_dialect.py:MAVLink.check_signature", "mavlink_utils/HC_dialect.py:MAVLink_message.sign_packet", "mavlink_utils/HC_dialect.py:MAVLink_message.pack", "mavlink_utils/HC_dialect.py:MAVLinkSigning"]}
{"id": "C76", "title": "Comparison of messages and their dictionaries", "statement": "Comparing two messages of the dialect never raises; they are equal exactly when class, sequence number, system, component and all field values agree (numbers as IEEE numbers, byte strings as the text they show), != is the negation, and no message equals None. Equality is symmetric and transitive. A packed and decoded message equals the original if no number is a NaN and character fields fit their array and contain NULs only at the end; for classes with integer fields only, messages are equal exactly when their frames are. to_dict has the key mavpackettype and then every field once in constructor order with the value shown. Expectations that fail: a message with a NaN is not equal to itself; equal messages can have different frames (the two zeros); text with an inner NUL does not survive.", "quantifier": "all message classes of the dialect, all field values, all 32-bit float patterns, all byte strings", "why_tests_cant": "An equivalence claim ranges over pairs and triples of messages and every float pattern and byte string, including NaNs, signed zeros and invalid UTF-8.", "anchors": ["mavlink_utils/HC_dialect.py:MAVLink_message.__eq__", "mavlink_utils/HC_dialect.py:MAVLink_message.__ne__", "mavlink_utils/HC_dialect.py:MAVLink_message.to_dict", "mavlink_utils/HC_dialect.py:MAVLink_message.format_attr"]}
{"id": "C77", "title": "Buffers made from a recording carry the recorded rows", "statement": "For every recording whose columns fit the five message types and every time, the script builds a buffer of 153 bytes made of five frames (position, pinger, attitude, sound velocity, chamber status) that a receiver decodes to the numbers recorded in each sensor's first row at or after that time, under the field names of the dialect, with consecutive sequence numbers modulo 256 over the whole mission; segmenting a buffer finds exactly these five messages and leaves no byte unknown. The time vector is the arithmetic progression up to but not including the final time. An empty sensor raises ValueError. Expectation that fails: a sensor that ended before the time contributes its first row, not its last.", "quantifier": "all recordings of any length with values in the range of their wire types, all times, all sequence numbers, all time vectors", "why_tests_cant": "The recordings, their lengths and the time vector are unbounded, and the sequence number wraps after many buffers.", "anchors": ["runs/HC_eilat_July_2018/data/msg_creator.py"]}
{"id": "C78", "title": "Cutting buffers into information words", "statement": "For one, two and three clusters every buffer of a mission is cut between messages: the parts joined give the buffer back, and segmenting each part finds exactly its messages and no unknown byte; another number of clusters raises ValueError. The words handed to the encoder have exactly the number of information bits of the code and start with the part, whatever bits the generator draws. In a padded word the messages of the part are found where they are in the part; any further message lies wholly in the padding, and with at most 64 bits of padding there is none. multiply_data = m repeats the words 2^m times in order. Expectation that fails: 72 bits of padding can be a message and are then reported, although the scripts take the last nine bytes not to be one. A part longer than the words of the code raises ValueError.", "quantifier": "all mission buffers, all states of the generator and all bits it draws, all paddings, all lists and repetition counts", "why_tests_cant": "The padding is random: a test sees a few of 2^72 draws, and the exceptional ones are exactly those not drawn.", "anchors": ["scripts/train_estimator.py", "scripts/classifier_analysis.py", "runs/HC_eilat_July_2018/simulated_data_mavlink_decoding.py"]}
{"id": "C79", "title": "The learned bit distribution", "statement": "For every non-empty collection of fewer than 65536 words of n bits the learned distribution has n rows, row j being the share of words whose bit j is zero and the share of those whose bit j is one; the rows are probability distributions for any number of words; no words raise ZeroDivisionError. Expectation that fails: with 65536 words the sums wrap around, so a bit that is always one is learned to be always zero.", "quantifier": "all collections of words of equal length, of any size", "why_tests_cant": "The wrap-around appears only beyond 65535 words; the claim ranges over all collections.", "anchors": ["scripts/train_estimator.py"]}
{"id": "C80", "title": "What the MAVLink decoder hands to the LDPC decoder, bit by bit", "statement": "Once the structure of a cluster and a value of each of its fields have been seen, the word handed to the LDPC decoder for a received word is determined bit by bit by the received word, the structure and the histories of the fields. A bit outside the fields stays. A bit of a field whose received value has score zero and whose history never varied becomes the bit of the mean, with the largest received magnitude times max(valid factor, 1). Any other bit of a field is multiplied by the valid factor when its score is above 1 - valid threshold, and by the invalid factor when it is below the invalid threshold. While learning, both factors grow from one with the number of words learned. If messages are found in the received word their bits are then the received ones times twice the valid factor; otherwise bits of the messages found in the rectified word are doubled. With positive factors the hard decisions change only in fields that are surely wrong and outside the messages found in the received word. The first word a returning call hands over is this one, for the state before the call.", "quantifier": "all configurations, structures, histories of calls, received words and bits, for learning and predefined models", "why_tests_cant": "The result combines field statistics over an arbitrary history with two segmentations of arbitrary words; only a proof covers all of them.", "anchors": ["decoders/mavlink_decoder.py:MavlinkRectifyingDecoder.model_prediction", "decoders/mavlink_decoder.py:MavlinkRectifyingDecoder.decode_buffer", "inference/statistical_models.py:BufferModel"]}
{"id": "C81", "title": "What the analysis of the field classifier counts", "statement": "For a received word the classifier analysis lists as good the fields with a score above 1 - threshold and as bad those below the threshold, and its two performance arrays are the confusion tables (true and false positives, true and false negatives, positives, negatives) of \"good\" against \"undamaged\" and of \"bad\" against \"damaged\" over all fields. The forcing analysis lists the rightly forced, wrongly forced and missed bits and fields, its arrays are the confusion tables of forced fields against damaged fields, of forced bits and of flipped bits against the errors over all bits of the word, and its quality array holds the numbers of errors, of forced bits, of flipped bits, of rightly and wrongly flipped bits and the share of forced bits that the model gets wrong (0 without forced bits). Replacing the forced bits by the model leaves as many errors as there were, less the rightly flipped, plus the wrongly flipped. If a field has no model the analysis raises.", "quantifier": "all predictions, thresholds, words, sets of errors, damaged fields, forced bits and model bits", "why_tests_cant": "The tables must be right for every combination of scores, errors and damaged fields, which no finite set of words covers.", "anchors": ["scripts/classifier_analysis.py:classifier_characterization", "scripts/classifier_analysis.py:forcing_characterization"]}
{"id": "C82", "title": "One step of the classifier analysis reports every word against its structure and the loaded model", "statement": "With a model made from buffers in which every field of the structures has a value, a step of the analysis succeeds for any words of whole bytes with distinct error positions inside them. The received word is the word sent with exactly the bits at the errors inverted; word number i is analysed with structure number i modulo the number of clusters; its report says (C81) what the models of those buffers say about the received word, whatever the words before it; the damaged fields are those containing an error. An error outside a word raises. Every error counts once as information or parity error, and the raw error rate is the requested one rounded down to whole bits. With learning switched on the step raises at the first word with a field, since the new model never gets a sample.", "quantifier": "all models made from buffers, structures, numbers of clusters, sequences of words and errors, thresholds", "why_tests_cant": "The claim is about all sequences of words; state carried from word to word (caches in the models, the running structure index) could break any later word.", "anchors": ["scripts/classifier_analysis.py:simulation_step", "inference/statistical_models.py:BufferModel.predict", "inference/statistical_models.py:BufferModel.find_damaged_fields", "inference/statistical_models.py:BufferModel.bitwise_model_mean"]}
{"id": "C83", "title": "The rates a simulation run reports are shares of exactly decoded words and of wrong bits", "statement": "In a simulation step both decoders see the same ratios, those of the words sent with exactly the bits at the error positions inverted; for an error probability between 0 and 1/2 their hard decisions are the received word. If no decoder raises, the success rate of a decoder times the number of words is the number of words it returned exactly, its bit error rate times the number of bits is the number of wrong bits, and the recover rate is the gain in exactly decoded words over the words the pure decoder missed (0 if it missed none). Whatever the decoders do, reported rates lie in [0, 1], the bit error rate is between the share of missed words divided by the word length and that share, and it is 0 exactly if the success rate is 1. Without words the step raises. With both clustering and learning switched on the model handed to the decoder is an unassigned name.", "quantifier": "all pairs of decoders with hidden state, word sequences, error positions and error probabilities", "why_tests_cant": "The decoders carry state from word to word and are arbitrary; the meaning of the rates must hold for all of them and for runs of any length.", "anchors": ["runs/HC_eilat_July_2018/simulated_data_mavlink_decoding.py:simulation_step", "utils/bit_operations.py:hamming_distance", "inference/entropy_mle.py:bsc_llr"]}
{"id": "C84", "title": "The numbers a recorded experiment saves, with unknown words left out", "statement": "For a recording in which every word sent is either known bit by bit or marked unknown, and decoders that do not raise: the saved success rate is the share of success flags among all words; the saved bit error rate times the number of bits of known words is the number of wrong bits in the estimates of known words, and lies in [0, 1]; for each known word the input error rate, the information errors and the parity errors are those of the hard decisions, and -1 for each unknown word. If no word is known (or there is none) the run raises after decoding everything and saves nothing. The success rate is not the share of exactly decoded words: it can be 1 while the bit error rate is 1.", "quantifier": "all pairs of decoders with hidden state and all recordings of any number of words", "why_tests_cant": "Unknown words may occur anywhere in the recording and the decoders are arbitrary, so no finite set of recordings settles how the numbers come out.", "anchors": ["runs/Feb_2022/experimental_data_run.py", "runs/Feb_2022/experimental_mavlink_based.py", "runs/Feb_2022/experimental_data_unified_decoder.py", "runs/Feb_2023/experimental_data_run_feb_23.py"]}
{"id": "C85", "title": "What the combined decoders hand to the LDPC decoder, bit by bit", "statement": "After any calls that returned, take a call that assigns the received word to a cluster whose buffer structure is known. The word handed to the LDPC decoder is determined by the received word, the field values of the buffers learned (or given), and the window of the bit vectors learned for that cluster. For the unified decoder: bits of a field that never changed get the mean's value with the largest received magnitude (while learning, only if the value received has no probability); of the others only bits of low entropy change, those in well-scored fields multiplied by the valid factor and those in badly scored fields that contradict the entropy model by the invalid factor, or minus it with flipping; the entropy model takes part once it has more words than the centre. For the combined decoder the fields act as in the MAVLink decoder. Then bits of messages found in the received word are strengthened, and the entropy model's clipped ratios are added at its positions. With positive factors and flipping, a low-entropy bit of a badly scored field is decided as the entropy model says; bits of messages found, and bits neither forced nor of low entropy, are decided as received.", "quantifier": "all configurations whose lengths fit, classifiers, LDPC decoders, statistics, call sequences that returned, and received words", "why_tests_cant": "The word depends on two models built up over the whole history of calls and on every bit of the received word; the rules interact and no finite set of histories covers them.", "anchors": ["decoders/combined_unified_decoder.py:mavlink_model_prediction", "decoders/combined_unified_decoder.py:entropy_model_prediction", "decoders/combined_unified_decoder.py:decode_buffer", "decoders/combined_decoder.py:mavlink_model_prediction", "decoders/combined_decoder.py:decode_buffer"]}
{"id": "C86", "title": "The learned bit probabilities are the maximum-likelihood estimates", "statement": "Suppose each buffer bit is a one with some probability p and the bits learned went through a binary symmetric channel with the configured flip probability f, f between 0 and 1 and not 1/2. Then the probability the models store for each bit position (frequency of ones, corrected for the channel and clipped to [0,1]) is the value of p that makes the learned bits most likely, and every other p in [0,1] makes them strictly less likely. This holds for the entropy aided denoiser after any buffers, for the entropy decoder and the combined decoders after any call that returned with a cluster, and for the bit-by-bit decoder in Bayes mode while its counters have not been rescaled. With f = 1/2 every p explains the bits equally well.", "quantifier": "all flip probabilities, windows, buffer contents and lengths, positions, call histories and competing probabilities", "why_tests_cant": "Optimality is a claim about a continuum of competing probabilities and all data sets; a test compares finitely many.", "anchors": ["inference/entropy_mle.py:EMLE.update_model", "decoders/classifiying_decoder.py:ClassifyingEntropyDecoder.update_model", "decoders/combined_decoder.py:CombinedDecoder.update_entropy_model", "decoders/entropy_bitwise_decoder.py:EntropyBitwiseWeightedDecoder.update_model_b", "analysis/MLE_noisy_Bernoulli.py"]}
{"id": "C87", "title": "The minimal dialect and the HC dialect interoperate", "statement": "Messages of the minimal dialect are packed to the same bytes by both dialects and decoded by both to the same message with the values packed. On any byte string, decode of the minimal dialect returns what decode of the HC dialect returns, except that a message whose id is not 0, 33, 212, 218, 225 or 234 raises MAVError. With robust parsing, any stream cut into any chunks is cut into the same pieces by both parsers; the minimal one hands out bad data of the same bytes for messages it does not define and counts each as an error. In the minimal dialect every single flipped bit of an accepted version-1 frame is detected, without the exception the HC dialect has.", "quantifier": "all byte strings, message classes, field values, sequence numbers, streams and ways of cutting them into chunks, and flipped bits", "why_tests_cant": "Two decoders are compared on all byte strings and all streams; a test compares them on finitely many.", "anchors": ["mavlink_utils/minimal_dialect.py:MAVLink.decode", "mavlink_utils/minimal_dialect.py:MAVLink.parse_buffer", "mavlink_utils/minimal_dialect.py:mavlink_map", "mavlink_utils/HC_dialect.py:MAVLink.decode", "mavlink_utils/HC_dialect.py:MAVLink.parse_buffer"]}
{"id": "C88", "title": "The simulation over a channel with Gaussian noise: ratios, error probability and rates", "statement": "In a simulation step over the Gaussian channel both decoders get, for every received value, the logarithm of the ratio of its densities under a zero and under a one, so that their hard decisions are the more likely bits. With delta = 1 the error probability handed to the entropy decoder is the probability that a bit is received wrong, whichever bit was sent, and the expected mean raw error rate of a step; it lies strictly between 0 and 1/2 and falls as delta or the signal to noise ratio grows, so for delta above 1 (the default is 2) the decoder is told too little. The reported rates are the shares of words decoded exactly, of wrong bits and of bits received wrong. The numbers of information and parity errors per word are the length of the word and zero whatever was received (refuted); the other two scripts count them correctly. Decibel ratios are converted to positive linear ones, other scales raise, and a step without words raises.", "quantifier": "all pairs of decoders with hidden state, words, noise, signal to noise ratios and values of delta; expectation over independent normal noise", "why_tests_cant": "The statement about the error probability is about a continuous distribution, and the rates must mean the same for arbitrary decoders with state and runs of any length.", "anchors": ["runs/HC_eilat_July_2018/classifying_entropy_decoder_over_awgn_channel.py:awgn_llr", "runs/HC_eilat_July_2018/classifying_entropy_decoder_over_awgn_channel.py:simulation_step", "runs/HC_eilat_July_2018/simluated_data_entropy_bf_decoders.py:simulation_step", "runs/HC_eilat_July_2018/simulated_data_classifying_entropy_decoder.py:simulation_step"]}
{"id": "C89", "title": "The clustering analysis: how buffers are made, damaged, split and scored", "statement": "The clustering analysis cuts each transmission into as many parts as there are classes; buffer number t*n+c is part c of transmission t, padded with random bits to the full length, and its class is c; one after the other the parts are the transmission. When the analysis succeeds, its matrix counts the test buffers and its accuracy is the share of test buffers whose label, mapped by the relabelling, is their class; a classifier that separates the classes gets accuracy 1 whatever it calls them. Each entry saved is the mean over the runs, rounded. Four things do not hold: a length the number of classes does not divide raises; with probability p and n classes only a share of at most p/n of the bits is inverted, all in the first k/n positions; without shuffling, buffers of the test set up to number n_training*n have no errors; and the number of classified buffers saved is the total of rounded means, which can be 0 (it is within half a buffer for each entry). Numbers of classes other than 2 and 3 raise ValueError.", "quantifier": "all transmissions, options, random draws, orders of shuffling and classifiers with hidden state; any number of runs", "why_tests_cant": "The positions, counts and scores must be right for every matrix of transmissions, every draw of the generator and every classifier, with buffers of any length.", "anchors": ["runs/clsutering_analysis/clustering_analysis.py:analyze", "runs/clsutering_analysis/clustering_analysis.py:analyze_mine", "runs/clsutering_analysis/clustering_analysis.py:clustering_stats"]}
{"id": "C90", "title": "What the entropy decoder hands to a bit-flipping LDPC decoder", "statement": "For a word assigned to a cluster the model says, at the positions of its low-entropy bits, the trust times the logarithm of the ratio of the learned probabilities, elsewhere nothing. As long as it says nothing the word received is handed over with priors zero. Method 0 hands over the sum of both words, the model scaled down to the peak of the received word if larger, the sum scaled to that peak: decisions change only where the model disagrees and is stronger. Methods 1 and 2 hand over the word received with priors that are positive exactly where the model contradicts it, in proportion to the model, bounded by the peak of the word and by 1 or the root mean square over the mean check degree; with hard bits the model has no effect. Method 3 forces low-entropy bits to the likelier letter once the window is full. With several clusters it takes the positions from cluster 0, so that bits of low entropy there but not in the own cluster are handed over as zeros (refuted); with a decoder that takes samples it hands over zeros and ones, none of them negative (refuted); without a window it raises.", "quantifier": "all decoder parameters, states of the models, classifiers, LDPC decoders and received words", "why_tests_cant": "The relations between samples, priors and decisions hold for all real-valued words and learned models, not just for recorded ones.", "anchors": ["decoders/classifiying_decoder.py:ClassifyingEntropyDecoder._sample_and_priors", "decoders/classifiying_decoder.py:ClassifyingEntropyDecoder.decode_buffer"]}
{"id": "C91", "title": "The generated encode and send methods put every argument into the field of its name", "statement": "For each of the 155 message types of the dialect there is exactly one method <type>_encode and one method <type>_send. A call, with arguments by position, by keyword or both, either gives every field of the message exactly one value (the version of a heartbeat is 3 when left out) and then builds or sends a message of that type in which each field has the value given for its name, or it raises a TypeError and sends nothing. What was sent is decoded by the receiver as the same type with the same values.", "quantifier": "all message types of the dialect, all positional and keyword arguments of all values, all states of the sender", "why_tests_cant": "310 methods with up to 24 parameters of free values and all ways to split them into positional and keyword arguments.", "anchors": ["mavlink_utils/HC_dialect.py:MAVLink.heartbeat_encode", "mavlink_utils/HC_dialect.py:MAVLink.heartbeat_send", "mavlink_utils/HC_dialect.py:MAVLink_heartbeat_message.__init__", "mavlink_utils/HC_dialect.py:MAVLink.send"]}
{"id": "C92", "title": "What the reader of the ship's logs finds in a log", "statement": "A log in which the received bytes contain none of the markers is read completely and in order: for each acquisition the time, the size, the success flag and the first 123 received bytes. Received bytes that contain the text 'data success: ' are cut there. A log that ends inside its last acquisition is read without that acquisition if it ends before the time marker; if it ends after the time marker and before the success marker is complete, the reader raises an IndexError and returns nothing, as it does with a ValueError when one time, size or flag cannot be parsed. In an acquisition without a carriage return and line feed, as in a log whose line ends were converted, everything from the time on but the last byte is taken for the time, and the reader raises a ValueError if that cannot be parsed.", "quantifier": "all logs (any number of acquisitions, any texts and received bytes), all points at which a log ends, all time and integer parsers", "why_tests_cant": "The received bytes are arbitrary and logs are of any length and can end anywhere.", "anchors": ["runs/Feb_2022/data/ship_log_reader.py:break_down"]}
{"id": "C93", "title": "What a buffer model trained on a recording has learned", "statement": "Training on a recording (a table with one transmission per row) takes the places of the fields from the first row and then learns, for each field, its value at that place in every row that was identified and begins with the start-of-frame byte, in order; model_size is the number of these rows, and bad_idx lists the other identified rows. A learned row with an entry that is not a bit ends the training with ValueError. Rows are not checked beyond their first byte, so values of damaged messages are learned too, and if the first row is an unidentified one nothing is learned at all.", "quantifier": "all tables with at least 984 columns and any number of rows whose first row holds no (truncated) array message", "why_tests_cant": "Recordings have any number of rows and any bits; what is learned depends on the whole history.", "anchors": ["runs/Feb_2022/train_buffer_model.py", "runs/Feb_2023/train_buffer_model.py", "inference/statistical_models.py:BufferModel.add_buffer", "inference/buffer_segmentation.py:BufferSegmentation.segment_buffer"]}
{"id": "C94", "title": "The study of noisy bits reports what its labels say", "statement": "For a source of ones with probability p seen through a channel that flips bits with probability f, the reported errors are those of the share of ones seen, and of that share corrected for flips and clipped to [0, 1]; maxima are attained and mean squares are means. The corrected share is the unique maximum-likelihood estimate. Over the random draws the share of ones is f(1-2p) off on average, so its mean squared error exceeds the square of that however many bits are seen, while the mean squared error of the corrected share is at most q(1-q)/(n(1-2f)^2) with q the probability of seeing a one.", "quantifier": "all p in [0, 1], all f in [0, 1] other than 1/2, all numbers of bits and trials, all draws", "why_tests_cant": "The script draws at random; statements about expected errors and about the most likely value range over all draws and all probabilities.", "anchors": ["analysis/MLE_noisy_Bernoulli.py"]}
{"id": "C95", "title": "The clustering trials cut, damage and count as described", "statement": "From transmissions of 1224 bits the trials make one word per class: the class's part of the transmission, filled up to the information bits of the code, with exactly the drawn bits inverted. Entry i of the results counts, for each label, the buffers of class (n_training-1+i) mod n that got this label from the first buffer after training on, so that no training buffer is counted and each class has exactly one entry. With three classes entry i is about class i; with two classes the entries are swapped. Shorter transmissions (576 to 1223 bits) can raise IndexError because the second word is not filled up.", "quantifier": "all transmissions, all draws of filling bits and error positions, all clustering metrics, any number of training buffers", "why_tests_cant": "Random draws and recordings range over all inputs; which class an entry is about depends on the number of training buffers.", "anchors": ["scripts/clustering_trials.py", "inference/Kmeans.py:BufferClassifier.classify"]}
{"id": "C96", "title": "What the comparisons of denoisers report", "statement": "For matrices of integer bits compare_denoisers runs the online denoiser anew on each column and the entropy aided denoiser on the matrix, and reports how many bits of its input each has changed and that number divided by the number of bits: this is not a rate of wrong bits, as a denoiser that changes nothing is reported with rate 0 whatever the noise was. The comparison on the fixed source always raises IndexError, because its symbols are floats. The DUDE example prints numbers with errors left = noise errors - good flips + erroneous flips; its errors of the entropy aided denoiser are the same for all noise because that denoiser is given the clean sequence.", "quantifier": "all decision rules that return bits, all context lengths at least 1, all matrices of bits, all noise", "why_tests_cant": "The scripts draw sequences at random; the accounting identities and the independence of the noise must hold for every draw.", "anchors": ["scripts/estimators_comparison/compare_denoisers.py:compare_denoisers", "scripts/estimators_comparison/dude_example.py", "inference/dude.py:OnlineDude.denoise_sequence"]}
{"id": "C97", "title": "Unifying the parts of a broken run keeps all steps in order", "statement": "All files ending in .pickle, and no others, enter the unified results, the oldest first and files of the same age by name; the outcome does not depend on the order in which the directory is listed. If all of them are results of steps, everything is written, and the arrays of the summary hold the numbers of the files in that order; minflip becomes the raw bit error rate of the oldest file, which need not be the smallest. A file with other contents ends the script with KeyError after the results were written; a directory without such files with IndexError after the figures were written; in both cases there is no summary.", "quantifier": "all directory listings with distinct names, all modification times and contents", "why_tests_cant": "Directories hold any files in any listing order.", "anchors": ["scripts/unify_results.py"]}
{"id": "C98", "title": "The capacity study plots the capacity of the channel", "statement": "The number plotted as capacity for flip probability p is the largest mutual information between what is sent and what arrives, over all distributions of what is sent. Up to p = 1/2 it falls with p, and so does the modified curve, which lies strictly above it and not above the capacity for p/2. A code of any rate between 0 and 1 meets the capacity at exactly one p below 1/2, and the modified curve is still above that rate for some larger p. What arrives over such a channel never has less entropy than what was sent; the number that the entropy study calls measured entropy is not the entropy of what arrives: if zeros are the more frequent bits it is strictly smaller than that of what was sent.", "quantifier": "all flip probabilities, all input distributions, all code rates, all shares r in (0, 1]", "why_tests_cant": "Maxima over all distributions and statements about all real probabilities cannot be settled by samples.", "anchors": ["runs/HC_eilat_July_2018/analysis/bsc_capacity.py", "runs/HC_eilat_July_2018/analysis/entropy_with_flips.py"]}
{"id": "C99", "title": "The averaged simulation: nested errors, repeated runs, success counts", "statement": "For increasing flip probabilities the averaged simulation inverts in each word exactly floor(n p) bits at different positions, those of a smaller p being among those of a larger one; its rates are those of the estimates, and its raw bit error rate is the rate of a decoder that returns the received word. If the largest probability is given as the smallest and vice versa, fewer bits are inverted than reported, and a decoder that does nothing seems to correct. The runs that are to be averaged are all equal, and zero runs end in NameError. Success counts are counts of words without wrong bits if decoders return six entries; the scripts before it, which count for four entries, raise TypeError.", "quantifier": "all decoders, all words, all draws of different positions, all lists of flip probabilities, any number of runs", "why_tests_cant": "Words and draws are random and decoders have memory; the equality of all runs and the nesting of errors must hold for every draw.", "anchors": ["runs/HC_eilat_July_2018/simulated_data_entropy_bitwise_decoder_weighted_model_averaged.py:simulation_step", "runs/HC_eilat_July_2018/simulated_data_entropy_bitwise_decoder_script.py", "runs/HC_eilat_July_2018/simulated_data_entropy_bitwise_decoder_script_mp.py:simulation_step"]}
{"id": "C100", "title": "The distances by which clusters are merged", "statement": "The distance of two clusters is the weight for their average size (that size, its square root, or 1) times the average, over the bit positions, of the Hellinger distance of their shares of ones, or of the symmetrised Kullback-Leibler divergence in bits, which counts as ten where it is larger or infinite. Both distances are symmetric, lie between 0 and the weight times 1 or 10, and are 0 exactly if the clusters have the same share of ones at every position. For clusters of single buffers they are proportional to the number of differing bits, so whatever the distance and the weights, the first two buffers to be put together are the first pair that differs in the fewest bits. Clusters of different buffer lengths raise ValueError. All this needs buffers with both symbols: an all-zeros and an all-ones buffer are at distance 0.", "quantifier": "all clusters built from any samples by any additions and merges, all weight schemes, both distances, all lists of buffers", "why_tests_cant": "The sets of samples are unbounded, and symmetry and the exact zero set are statements about all pairs of distributions.", "anchors": ["inference/clustering.py:BufferClassifier.merge_clusters", "inference/clustering.py:Cluster.dist", "utils/information_theory.py:hellinger"]}
{"id": "C101", "title": "The command saved with a run repeats it", "statement": "The command line that a simulation or experiment script writes to cmd.txt, split into words and parsed by the same script, is accepted and gives every option the setting of the run: the same value, the same number as a float, or off where the feature was off. This holds for 19 of the 22 scripts and all but six options. The commands of three scripts (the AWGN study, the pretrained model study and the clustering analysis) are never accepted, that of the February 2022 MAVLink study only with a window. Six options are reset to their defaults: cluster and separate_models in four experiment scripts, window_len without a window in the averaged study, processes without N in the weighted study. N is replaced by the number of words of the run, so that the same words are used again exactly if every buffer gave one word or all buffers were used.", "quantifier": "all scripts that write cmd.txt, all values of their options that print as one word, all data lists, all numbers of words per buffer and doublings", "why_tests_cant": "The values of the options are unbounded and there are some 250 options in 22 scripts; a test repeats one run of one script.", "anchors": ["runs/HC_eilat_July_2018/simulate_gallager_bf.py", "runs/HC_eilat_July_2018/classifying_entropy_decoder_over_awgn_channel.py", "runs/HC_eilat_July_2018/simulated_data_pretrained_model.py", "runs/clsutering_analysis/clustering_analysis.py", "runs/Feb_2022/experimental_mavlink_based.py", "runs/Feb_2023/experimental_data_unified_decoder.py", "runs/HC_eilat_July_2018/simulated_data_entropy_bitwise_decoder_weighted_model_averaged.py", "scripts/classifier_analysis.py"]}
{"id": "C102", "title": "Comparing any number of decoders on the same words", "statement": "In the studies that compare three, four or seven decoders, every decoder is given the same received words: its success rate and bit error rate are those it gets when it is simulated without the others on the same words and errors, and the study raises only if one of the decoders does so on its own. A success rate times the number of words is the number of words decoded exactly; a bit error rate times the number of bits is the number of wrong bits. The raw error rate is the share of wrong bits, and the reported errors of each word are those in its information bits and those in its parity bits. The log of the combined study never raises; the log of the pretrained study divides by zero, and the step is lost, exactly if the plain decoder decodes every word and the pretrained one does not.", "quantifier": "all lists of decoders with any hidden state and any order, all words and error positions, all noise, all signal to noise ratios, all lengths of the code", "why_tests_cant": "Decoders keep state between words, so a leak from one to another shows only after some history; the division by zero needs particular outcomes of two decoders.", "anchors": ["runs/HC_eilat_July_2018/simulate_gallager_bf.py: simulation_step", "runs/HC_eilat_July_2018/simulated_data_pretrained_model.py: simulation_step", "runs/HC_eilat_July_2018/simulated_data_combined_decoder.py: simulation_step", "runs/HC_eilat_July_2018/simluated_data_entropy_bf_decoders.py: simulation_step"]}
{"id": "C103", "title": "Spreading the points of a simulation over processes", "statement": "Pool.map returns one result for every point in the order of the points, and the result of a point depends only on the point and on the earlier points of the same process. If steps leave nothing behind that later steps use, the results do not depend on the number of processes. In the bit flipping study they do: the iteration limit of a point is the largest of the configured limit and of three times the expected number of errors at this point and at all earlier points of its process, i.e. that of the first point of its process, as the points are sorted; it is the configured one everywhere if that is large enough. Processes forked from one start with the same random generator, so points that come equally late in their processes get the same noise up to its amplitude: at the better of two such points no word has more errors.", "quantifier": "all steps and globals, all assignments of points to processes, all lists of points, all sequences of random numbers, all decoders", "why_tests_cant": "The assignment of points to processes is up to the scheduler, and the effect shows only in the numbers of several points together.", "anchors": ["runs/HC_eilat_July_2018/simluated_data_entropy_bf_decoders.py: simulation_step", "runs/HC_eilat_July_2018/classifying_entropy_decoder_over_awgn_channel.py", "runs/HC_eilat_July_2018/simulated_data_combined_decoder.py", "scripts/classifier_analysis.py"]}
{"id": "C104", "title": "What the comparisons with the flipping decoder count as success", "statement": "The study with a predefined model reports, for the plain, the entropy and the flipping decoder, the share of words decoded exactly and the share of wrong bits. The two older studies with the same three decoders never report anything: they take entry number five of a result for the number of wrong bits, which is right for the decoders with a model, but for the plain decoder it is an array with a value for each bit, so a TypeError is raised after all words of the first point have been decoded.", "quantifier": "all answers of the three decoders, all words, all lengths of the code above one, all rates of errors", "why_tests_cant": "The exception comes after hours of decoding, and no unit test runs the studies; the counts must be right for every outcome.", "anchors": ["runs/HC_eilat_July_2018/simulated_data_entropy_bitwise_decoder_predefined_model.py: simulation_step", "runs/HC_eilat_July_2018/simulated_data_entropy_bitwise_decoder_script_mp.py: simulation_step", "runs/HC_eilat_July_2018/simulated_data_entropy_bitwise_decoder_script.py", "decoders/entropy_bitwise_decoder.py: EntropyBitwiseDecoder.decode_buffer"]}
{"id": "C105", "title": "What the combined decoders do with debug on", "statement": "A call of a combined decoder with debug on that returns does exactly what the call without debug does: the same word goes to the LDPC decoder, the same values are returned, the same things are learned; so does a whole sequence of calls that return. But debug is not harmless: given error positions, a call raises before anything is decoded or learned unless the structure of the word's cluster is known and all error positions lie in the word; a decoder that has to learn its structures therefore never learns any, no matter how many words it gets. Without error positions the unified decoder makes no analysis, the other one raises. With a predefined model that has seen all fields of the structures, debug changes nothing.", "quantifier": "all words, error positions, classifiers, LDPC decoders, field statistics, and all histories of calls", "why_tests_cant": "That a flag for analysis changes nothing, or prevents learning for ever, is a statement about all words and all histories of calls.", "anchors": ["decoders/combined_decoder.py: CombinedDecoder.decode_buffer, classifier_analysis, forcing_analysis", "decoders/combined_unified_decoder.py: CombinedUnifiedDecoder.decode_buffer, classifier_analysis, forcing_analysis"]}
{"id": "C106", "title": "The dialects are what their XML definitions say", "statement": "The two Python dialects implement exactly their XML definition files. There is one message class per message definition, under its number, with the defined names, types and array lengths; the fields go over the wire in MAVLink's order (wider types first, otherwise in the order of the definition) and the extra checksum byte is the one MAVLink computes from the definition. Hence, for every defined message and all values that fit it, the packed frame is the one frame MAVLink prescribes, and conversely every such frame, by whomever it was built from the XML file, is decoded to that message with those values. The enumerations and module constants are exactly the entries of the XML file with their numbers, entries without a number being numbered after the largest one before.", "quantifier": "all messages and enumerations of both definition files, all field values in range, all sequence, system and component numbers", "why_tests_cant": "The peers are generated from the XML file in other languages; one wrong byte of a table of 155 messages makes a message unreadable, and which values show it cannot be known in advance: the claim is about all messages and all values.", "anchors": ["mavlink_utils/HC_dialect.xml: messages, enums", "mavlink_utils/minimal_dialect.xml: messages, enums", "mavlink_utils/HC_dialect.py: mavlink_map, MAVLink_*_message, enums, MAVLink_message.pack, MAVLink.decode", "mavlink_utils/minimal_dialect.py: mavlink_map, MAVLink_*_message, enums"]}
{"id": "C107", "title": "What the batch scripts run", "statement": "The batch scripts sweep one number by pasting a counter behind a fixed text (0.00, 0.0 or 0.). For every choice of first counter, step and last counter they start exactly one run per counter up to the last, in order; every run is accepted by the script it names, with the value that has the counter's digits behind the fixed text, the given numbers of clusters, doublings or runs, and the defaults for all else. So the value of a counter depends on how many digits it has: all values of a sweep stay within one power of ten, a counter and its tenfold give the same value, and the sweep is increasing exactly if all its counters have the same number of digits (8 to 11 gives 0.008, 0.009, 0.0010, 0.0011). The sweep of context lengths is 1 to 8, and the run noted in runners.txt is accepted with the settings written there. One of the batch scripts names a script that is not in its directory.", "quantifier": "all first counters, positive steps, last counters, cluster numbers, doublings and run counts; all ways to read floats that read decimal numbers between 0 and 1 correctly", "why_tests_cant": "The counters are free arguments; a test of one sweep does not show which sweeps are out of order, and the effect only appears when the counter passes a power of ten.", "anchors": ["scripts/batch_runner_classifier.sh", "runs/HC_eilat_July_2018/batch_run_mav_decoder.sh", "runs/HC_eilat_July_2018/batch_run_dude_decoder.sh", "runs/HC_eilat_July_2018/runners.txt", "runs/clsutering_analysis/batch_runner.sh", "scripts/classifier_analysis.py: parser", "runs/clsutering_analysis/clustering_analysis.py: parser"]}
{"id": "C108", "title": "Where the records of a logger go", "statement": "After any history of calls of setup_logger a record below the level of the last call for its logger is dropped. Any other record is written to standard output once for every call so far that returned and was for this logger or for one of its ancestors (the root logger, or a name that this one continues after a dot, as file names do), and to each file once for every such call with that file. A logger without a level of its own, because it was never set up or was set to level 0, takes that of its nearest ancestor that has one; the root logger starts at WARNING. setup_logger returns exactly if its file can be opened; a call that raises adds nothing, but has set the level. Expectation that fails: one line per record; called k times for the same name, each record is written k times to both.", "quantifier": "all histories of calls with any names, files and levels, all loggers, all sets of files that can be opened, all record levels", "why_tests_cant": "Loggers live as long as the process: what one call leaves behind depends on all calls before it and on how the names are related.", "anchors": ["utils/common_logging.py: setup_logger"]}
{"id": "C109", "title": "The methods and the signature check of the minimal dialect", "statement": "The minimal dialect has an encode and a send method for each of its six messages and no others. An encode call builds a message in which every field has the value given for its name, by position, keyword or default, and raises TypeError if some field has no value or more than one; a send call writes one frame that both dialects decode to these values. With a signing key, decode of the minimal dialect treats every frame it defines as the HC dialect does, if it is given a bytearray. Expectation that fails: given an array, which is what the stream parser makes of the bytes, a receiver with a key raises AttributeError for every well-formed frame flagged as signed when run with Python 3.9 or later, and so does parse_buffer even with robust parsing; for all other frames the array makes no difference.", "quantifier": "all argument lists and values, all messages of the minimal dialect, all keys, digest functions, receiver states and frames", "why_tests_cant": "A test sends chosen values to chosen methods; the failing path needs a signed frame arriving on a stream, and what holds beside it is about all frames and states.", "anchors": ["mavlink_utils/minimal_dialect.py: MAVLink.*_encode, MAVLink.*_send, MAVLink.check_signature, MAVLink.decode, MAVLink.parse_buffer", "mavlink_utils/HC_dialect.py: MAVLink.check_signature"]}
{"id": "C110", "title": "Metrics of the field classifier", "statement": "The summary rows saved by classifier_analysis.py count, over all words of a step together, the four kinds of cases (positive or negative call, right or wrong) of the good fields, the bad fields, the forced fields, the forced bits and the flipped bits. From such rows classifer_metrics.m computes, for every threshold and point, the true and false positive rate, precision, recall, accuracy and informedness of these cases, NaN where there is nothing to have a share of; classifer_confusion.m, ppv.m and recall.m agree with it. Files with different numbers of points raise, unless one of them has a single point, which is then taken for all points. Expectation that fails: the F-beta score weights recall by 1/beta instead of beta; F0.5 of one hit and one miss is reported as 5/9 instead of 5/6.", "quantifier": "all models, words and error positions of a step; all tables of cases, thresholds, points and beta", "why_tests_cant": "A test computes the metrics of a chosen table; that every entry is the metric of its cases, with the NaN cases, ranges over all tables.", "anchors": ["scripts/classifier_analysis.py: summary rows", "analysis/classifer_metrics.m", "analysis/classifer_confusion.m", "analysis/ppv.m", "analysis/recall.m", "analysis/classifier_threshold_effect.m"]}
{"id": "C111", "title": "The MATLAB studies of noisy bits", "statement": "For the same draws the maximum-likelihood study in MATLAB stores the two mean squared errors of the Python study. In the Bayesian study every estimate and both mean squared errors lie between 0 and 1 whatever was drawn, up to 73 draws the estimate is the share of ones, and shrinking the counts keeps their ratio and leaves at least 26 of them. Expectations that fail: the counts are not kept below the window of 75 (counts without a common factor are never shrunk, so they exceed any bound for some draws); the counts are not reset between the points of the study, so the results of a point depend on the draws of the points before it.", "quantifier": "all draws, probabilities, flip probabilities and sequences of points", "why_tests_cant": "The draws are random; bounds and the effect of earlier points are statements about all histories of draws.", "anchors": ["analysis/MLE_noisy_Bernoulli.m", "analysis/Bayesian_noisy_Bernoulli.m"]}
{"id": "C112", "title": "Finding the words sent in the recordings of February 2022", "statement": "data_reader.m numbers missions by the pauses of more than five minutes before a record. For words of at least two bits the reading never fails and gives one result for every reception used, ordered by time; on the 14th a reception with the name of its predecessor is left out, on the 16th none. A reception counts as a success exactly if the modem decoded it, and then its word is what the decoder makes of its soft bits. On the 16th one that failed gets the decoded word of its copy with the same time stamp with the smallest error rate, if some copy has a positive one. Any other reception stays unknown (error rate -1, a row of twos) or gets a word sent between the words of the decoded receptions next to it, one with the most ones in common with the received bits; its error rate is the share of differing bits. If all words sent have the same number of ones, this is a nearest word of the span. Expectations that fail: in general a nearer word of the span is passed over (for every word length from 3 on, one differing in 1 place in favour of one differing in all but 2); a copy received without any error is not used.", "quantifier": "all lists of records of both days, soft bits, time stamps, error rates and decoders, all word lengths from 2 (from 3 for the failing expectation)", "why_tests_cant": "A test reads the recordings there are; which word is found for which reception is a statement about all recordings.", "anchors": ["runs/Feb_2022/data/data_reader.m", "scripts: tx[idx, 0] < 2 in the recorded experiments"]}
{"id": "C113", "title": "Success rates by input error rate in February 2022", "statement": "If some reception has a known input error rate, the table behind the success-rate plot has one bin for every multiple of the width up to the largest rate. A bin's attempts are the readings of both days with a rate from its lower edge to below its upper one, its success rate is the share of successes among them, NaN without attempts. Every reading with a rate of at least 0 lies in exactly one bin, so attempts and successes add up. For the receptions read from the recordings (C112) the attempts are exactly the receptions whose word is known, every success is among them, the two histograms together have as many entries, and the overall success rate is taken over all receptions, known or not.", "quantifier": "all recordings of both days, decoders, bin widths and readings", "why_tests_cant": "That no reading falls between or outside the bins depends on every possible largest rate and on the recordings; a test sees one data set.", "anchors": ["runs/Feb_2022/data/data_reader.m: lines 499-548", "runs/Feb_2022/data/analysis.m", "runs/Feb_2022/data/experiment_analysis.m"]}
{"id": "C114", "title": "The file of a BufferModel, also when saving was interrupted", "statement": "What json.load finds in a file written by json.dump is what was handed over, so load of a saved file gives back the model through the text of the file, whatever characters its names contain. If the process stops during save, the file is either as before the call, or holds a proper beginning of the new text, on which load raises a ValueError, or the whole text, which gives the new model; load never gives a third model. After any history of calls of save with one filename, some interrupted, the file belongs to the last call that opened it. A call that raises while computing the statistics leaves the file as it was. That an interrupted save keeps the earlier model is false: opening the file empties it.", "quantifier": "all models, descriptions, earlier files, points of interruption and histories of calls of save", "why_tests_cant": "The number of points at which a write can stop grows with the file, and a beginning of a JSON text that happens to be valid would be found by a test only by luck.", "anchors": ["inference/statistical_models.py:BufferModel.save", "inference/statistical_models.py:BufferModel.load"]}
{"id": "C115", "title": "The results directory: runs side by side, raising and killed", "statement": "Whatever run scripts work in one results directory, however their steps interleave, wherever they raise and whenever they are killed: two runs never have the same directory, every file in a directory was written by the run that made it, a complete file stays complete and of the same run, and the files of a run are there in the order in which the script writes them - some first ones complete, then at most one begun, then none; when a run has returned all are complete. The experiments that open log.log inside their directory find there exactly their own records, in order, whatever runs beside them. Runs with the shared results/log.log that follow each other and return find exactly their own records in their directories; a run that is killed leaves its records to the next one. Timestamps are equal exactly when the date, hour, minute and second read are. False: two runs with the shared log side by side both succeed (the second raises although its results are complete, and its records are in the first one's log); clustering_analysis.py leaves an earlier log alone when started in the same second; the pickles of the steps of different runs never collide; a timestamp names a moment at which the clock was read; directories sorted by name are sorted by time.", "quantifier": "all sequences of events of any number of runs of any of the scripts: steps, exceptions and kills, with arbitrary texts for the readings of the clock", "why_tests_cant": "The interleavings of several runs and the points at which one can raise or be killed are too many to try, and collisions need two runs in the same second.", "anchors": ["runs/HC_eilat_July_2018/simulated_data_classifying_entropy_decoder.py", "runs/HC_eilat_July_2018/simulated_data_mavlink_decoding.py", "runs/HC_eilat_July_2018/simulated_data_combined_decoder.py", "runs/clsutering_analysis/clustering_analysis.py", "runs/Feb_2022/experimental_data_run.py", "runs/Feb_2023/experimental_data_unified_decoder.py", "runs/HC_eilat_July_2018/simulated_data_entropy_bitwise_decoder_weighted_model.py", "utils/common_logging.py:setup_logger"]}
{"id": "C116", "title": "The numbers the buffer model takes from a buffer are those MAVLink decodes in it", "statement": "For every byte string, if none of the messages that segmentation finds in it has an array, the values the buffer model reads for the found structure are, name by name and in order, the numbers of the messages the MAVLink parser decodes at these places: marker, payload length, sequence number, sender system, sender component, message id and every field, a field of a message in the order of its fields. A model that is given any such buffers with the structures found in them holds, under every name, the window of the numbers of that name in the decoded messages, in the order of the buffers. The values can be read if and only if none of the found messages has an array.", "quantifier": "all byte strings, all sequences of buffers and all windows", "why_tests_cant": "The buffer model has its own table of field offsets and formats and never calls the parser; that the two agree concerns every message type, payload and position.", "anchors": ["inference/statistical_models.py:BufferModel.add_buffer", "inference/buffer_segmentation.py:BufferSegmentation.segment_buffer", "mavlink_utils/HC_dialect.py:MAVLink.decode", "protocol_meta/protocol_meta.py", "protocol_meta/msg_header.py"]}
{"id": "C117", "title": "The decoder learns the recorded numbers of the mission that was sent", "statement": "Let the buffers made from a recording be cut into the words of one, two or three clusters and padded with random bits, and let every word arrive at the learning decoder in the cluster it was sent for, with whatever classifier, LDPC decoder and received values. If the padding of the first buffer holds no message, then the structures the decoder has are those of the parts of a buffer, it has learned every word, and its model holds under the name of each field of the five messages the window of the numbers recorded for the times of the mission and under the sequence number the window of the numbers sent. The same holds for any words made of frames of messages without arrays and padding, if the layout of a cluster does not change. False: that all words arrive is enough. If the first decoded word of a cluster holds a message with an array, an AUTH_KEY frame in the padding for instance, the decoder learns nothing from that cluster ever after.", "quantifier": "all recordings whose numbers fit, times, sequence numbers, random padding, classifiers, LDPC decoders, received values and windows", "why_tests_cant": "It joins the mission, the word cutting, the decoder and its model for every recording and every run; the failing case needs a particular random padding.", "anchors": ["runs/HC_eilat_July_2018/data/msg_creator.py", "runs/HC_eilat_July_2018/simulated_data_mavlink_decoding.py", "decoders/mavlink_decoder.py:MavlinkRectifyingDecoder.decode_buffer", "inference/statistical_models.py:BufferModel.add_buffer"]}
{"id": "C118", "title": "The curves over thresholds in the thesis", "statement": "Let several runs of the classifier analysis judge the same words with the same errors, each with its own threshold, at 19 error rates or more. Whatever order their summary files are found in, the ROC curve drawn for damaged fields at the error rates 1, 7, 13 and 19 goes through the thresholds from 0.001 to below 1 in ascending order and shows for each the share of the undamaged and the share of the damaged fields whose score lies below the threshold; the curve for valid fields goes from 0.01 and shows the share of the damaged and of the undamaged fields with a score above one minus the threshold; the precision is the share of the damaged (undamaged) ones among the fields called so. Along every ROC curve neither rate ever falls. If all runs had the same range of error rates, every curve is labelled with the rate its point was run with. False: that the curves rise for the script as it is, whose runs draw errors of their own; that three clusters are analysed (no message is found in any word, all counts of fields are zero and all metrics NaN); that a single error rate is labelled right.", "quantifier": "all models, structures, words, errors, sets of thresholds and orders of files; all data for three clusters", "why_tests_cant": "It joins the classifier, its counts over all words, the summary files and the MATLAB figures for every set of runs; the plots themselves are only looked at.", "anchors": ["analysis/plot_for_thesis.m", "analysis/classifer_metrics.m", "scripts/classifier_analysis.py:simulation_step", "scripts/classifier_analysis.py:buffer_structures"]}
{"id": "C119", "title": "Results saved in parts hold what the run would have saved", "statement": "fix_results.py returns if and only if every step of the loaded results holds tables under data, decoded_entropy and decoded_ldpc; otherwise it raises before it saves anything. If it returns, its three files hold together what the last mat file of the run would have held: for every step, the two decoded tables are the entries with the number of the step in two of the files, all its other entries stand under that number in the third, and so do all entries of the summary. Whatever runs work side by side, raise or are killed, once a run over the AWGN channel has begun that last mat file the two files fix_results.py reads are complete, its own, and stay so.", "quantifier": "all summaries and results, all schedules and crash points of any number of runs", "why_tests_cant": "The script exists for runs that died while saving; that its inputs are then complete concerns every crash point, and that nothing is lost or mixed up every list of results.", "anchors": ["scripts/fix_results.py", "runs/HC_eilat_July_2018/classifying_entropy_decoder_over_awgn_channel.py:__main__"]}
{"id": "C120", "title": "What a receiver of a byte stream gets on a noisy line", "statement": "With robust parsing on and however the stream is cut into chunks: messages before noise are always received. Noise between messages that holds no start marker (253 or 254), however long, costs no message, and each of its bytes is reported once as bad data. After any noise whatever, all messages that begin at least 279 bytes behind its end are received, in order and with nothing left over, if the frames standing in these 279 bytes hold no marker except as their first byte; the items in between carry exactly the noise and those frames. False: that a receiver always finds the messages again: after the two stray bytes 254 and 0, a sender that keeps sending the origin of its map is never heard, however many messages it sends.", "quantifier": "all messages of the dialect, all noise, all lengths of stream and all ways to cut it", "why_tests_cant": "The noise and the stream are unbounded, and whether the parser ever gets back in step depends on all bytes in between.", "anchors": ["mavlink_utils/HC_dialect.py:MAVLink.parse_buffer", "mavlink_utils/HC_dialect.py:MAVLink.parse_char", "mavlink_utils/HC_dialect.py:MAVLink.__parse_char_legacy", "mavlink_utils/HC_dialect.py:MAVLink.send"]}
{"id": "C121", "title": "What damage to one message does to the segmentation of a buffer", "statement": "Take packed messages without array fields back to back. If one of them is damaged so that the decoder refuses it, with its length byte or its id byte intact and no start marker among its bytes but the first, then segmenting the buffer loses exactly this message: all others are reported at their places, nothing else is reported, exactly its bytes are labelled unknown and exactly its bits marked as not valid. One inverted bit anywhere is such damage unless the message holds, or the bit makes, a marker behind the first byte. False without the condition on markers: one inverted bit can make the segmentation miss a later message that is intact, and report a message that nobody sent.", "quantifier": "all lists of array-free messages with any field values, all damage to any one of them, all positions of an inverted bit", "why_tests_cant": "The claim is about all contents of all messages and all errors in them; that damage uncovers a frame inside a payload happens for very few.", "anchors": ["inference/buffer_segmentation.py:MsgParts", "inference/buffer_segmentation.py:BufferSegmentation.segment_buffer", "mavlink_utils/HC_dialect.py:MAVLink.decode"]}
{"id": "C122", "title": "Fields that never vary are repaired before the LDPC decoder sees the word", "statement": "Let the MAVLink decoder know the structure of the buffers of a cluster and have seen every field of it. Take a field whose kept values are all the same number, one for which the statistics are exact (C128), and a received word that is not all zero. Whatever was received there, the hard decisions handed to the LDPC decoder on the bits of the field are the bits of that number, unless a message found in the received word covers them; on bits of fields that have varied, of messages found and outside the fields they are the bits received. So, if every field is constant or has varied and the word sent carries the constants, a bit handed over is wrong exactly if it was received wrong and is not in a constant field outside the messages found: errors are only removed. This holds after any calls, learning or with a predefined model. False: that the word handed over never has more wrong bits than the word received: when a field changes for the first time and its message is hit anywhere, the change is overwritten.", "quantifier": "all histories of words, all structures, windows, classifiers, LDPC decoders, received words and positive factors", "why_tests_cant": "What is handed over depends on the whole history of learned words and on all received values; tests replay one recording.", "anchors": ["decoders/mavlink_decoder.py:MavlinkRectifyingDecoder.model_prediction", "decoders/mavlink_decoder.py:MavlinkRectifyingDecoder.decode_buffer", "inference/statistical_models.py:FieldModel.classify_value", "inference/statistical_models.py:FieldModel.bitwise_mean", "inference/statistical_models.py:num2bits"]}
{"id": "C123", "title": "Frames of protocol version 2 and other byte strings", "statement": "A byte string that starts with the version-2 marker is accepted by decode iff, with 13 bytes at its end set aside when the lowest flag bit is set, it has at least 12 bytes, its length byte is its size minus 12, its three id bytes are the id of a message of the dialect and its checksum is the X.25 sum of the bytes in between and the extra byte. It then says what the version-1 frame with the same numbers and payload says, whatever the flags. In frames of both versions zeros at the end of the payload may be left out or added and bytes behind the size of the message do not count. A string that starts with neither marker raises MAVError. False: that a signature is looked at when no key is set (any 13 bytes do), and that get_payload gives the payload (for version 2 four header bytes stand before it).", "quantifier": "all byte strings; all messages of the dialect, payloads up to 255 bytes, flags and signature blocks", "why_tests_cant": "The acceptance condition ranges over all byte strings; the tests only decode frames the same library packed, which are of version 1.", "anchors": ["mavlink_utils/HC_dialect.py:MAVLink.decode", "mavlink_utils/HC_dialect.py:MAVLink_message.get_payload"]}
{"id": "C124", "title": "Version 2 of the protocol on the line", "statement": "As shipped (wire protocol version '1.0'), and whenever version 1 is forced, the sender sends version-1 frames. A receiver of a byte stream (robust parsing) takes frames of both versions, signed or not, in any order, with noise without start markers in between and however the stream is cut: every frame that decode accepts gives exactly one item, in order, and nothing is left over; the item is the frame's message, or bad data if it is a version-2 frame with any flag but the lowest set. False: that the receiver of a stream gives the messages decode gives (frames with unknown flags are decoded by decode and never received from a stream); and that a sender switched to version '2.0' is understood: every frame it sends, signed or not, is refused by every receiver, whatever its key. The marker is all that is wrong with it: with 253 in place of 254 each of these frames is accepted and says what the version-1 frame of the same message says.", "quantifier": "all frames of both versions, noise, cuts of the stream; all messages of the dialect, field values, keys, digest functions and receiver states", "why_tests_cant": "Ranges over all mixtures of frames and all cuts; version 2 is never used by the shipped scripts, so no test packs or receives it.", "anchors": ["mavlink_utils/HC_dialect.py:MAVLink_header.pack", "mavlink_utils/HC_dialect.py:MAVLink_message.pack", "mavlink_utils/HC_dialect.py:MAVLink.parse_buffer", "mavlink_utils/HC_dialect.py:MAVLink.decode"]}
{"id": "C125", "title": "Callbacks that raise and writes that fail", "statement": "Let a receive callback be set that does anything and raises whenever it likes, and let the caller go on after exceptions. With robust parsing every item of the stream, bad data included, is handed to the callback exactly once and in order: it has seen a first part of the items a link without callback returns for the same bytes, the bytes of the rest are still in the buffer, and after a call that returned there is no rest. A call returns the items handed over in it, or raises what the callback raised on the last of them; items are counted when handed over. On the sending side, whatever writes and the send callback do, the frames written as a whole are numbered consecutively modulo 256 and counted, and an attempt carries the number of frames written before it, so the number of a failed write is used again. False: that the caller of parse_buffer gets every item (those received in a call before the callback raised are returned by no call), and that a message whose send raised was not sent (the callback runs after the frame is written and counted).", "quantifier": "all callbacks and lines (any state, raising at any call), all streams and cuts, all sequences of messages", "why_tests_cant": "Ranges over every point at which a callback or a write can raise and every continuation after it.", "anchors": ["mavlink_utils/HC_dialect.py:MAVLink.set_callback", "mavlink_utils/HC_dialect.py:MAVLink.set_send_callback", "mavlink_utils/HC_dialect.py:MAVLink.parse_char", "mavlink_utils/HC_dialect.py:MAVLink.parse_buffer", "mavlink_utils/HC_dialect.py:MAVLink.send"]}
{"id": "C126", "title": "What a mission teaches about its next word", "statement": "Let all buffers made from a recording so far have arrived at the learning MAVLink decoder, in one, two or three clusters, the padding of the first holding no message, and take any word of the next buffer of the recording. Whatever is received for it (not all zero), the decoder replaces it, before the LDPC decoder runs, by a word whose headers (marker, length, system, component and message id, not the sequence number) and whose fields for which the same number was recorded all the time, as far as the statistics are exact for it (C128), are exactly those that were sent, on every bit that does not lie in a message found in the received word. Messages found are passed on as they were received. The same holds for any words made of frames and padding: a field is repaired if all numbers kept under its name are the number sent.", "quantifier": "all recordings whose numbers fit, times, sequence numbers, random padding, classifiers, LDPC decoders, windows, received words and positive factors", "why_tests_cant": "A statement about every mission, every noise and every history; it joins the sender, the clusters, learning and rectification, which tests exercise one by one.", "anchors": ["runs/HC_eilat_July_2018/data/msg_creator.py", "runs/HC_eilat_July_2018/simulated_data_mavlink_decoding.py", "decoders/mavlink_decoder.py:MavlinkRectifyingDecoder.decode_buffer", "decoders/mavlink_decoder.py:MavlinkRectifyingDecoder.model_prediction", "inference/statistical_models.py:BufferModel.add_buffer"]}
{"id": "C127", "title": "Default parsing mode: exceptions instead of bad-data items", "statement": "A MAVLink object is created with robust parsing off. Let the caller go on after exceptions, and compare with what robust parsing finds in the same stream. With parse_char, however the stream is cut, the object has dealt with a first part of these items: it returned exactly the messages among them, in order, raised only MAVError, at least once for every refused frame and every run of stray bytes and at most once for every bad item (exactly the former when no call is made without bytes), and the other items are still in the buffer; its packet counter counts the messages, its error counter counts the exceptions except those for refused frames. Byte by byte nothing is left behind; with larger portions the object handles one item for each call, and calls without bytes make it catch up. With parse_buffer every call returns or raises MAVError and takes the next few items: those it returns, or, when it raises, some messages nobody gets and the item complained about. So messages come in order and at most once, and on a stream without bad data the two modes agree for every cut. False: that parse_buffer returns every message (a stray byte after a frame in the same portion loses the message), and that None means nothing is to be had (a second stray byte gives None with a complete frame behind it).", "quantifier": "all byte streams, all ways of cutting them into portions (including empty ones), all positions of errors", "why_tests_cant": "Ranges over every stream and every cut, and over every way in which calls that raise, return None and return messages can follow one another.", "anchors": ["mavlink_utils/HC_dialect.py:MAVLink.__init__", "mavlink_utils/HC_dialect.py:MAVLink.parse_char", "mavlink_utils/HC_dialect.py:MAVLink.parse_buffer"]}
{"id": "C128", "title": "Field statistics in floating point: constant fields are recognised, and where not", "statement": "Let mean and deviation of a field be computed in 64-bit floats, each operation rounded to a nearest double, the additions in any order. For a field of integers of up to 32 bits and a window of up to 2^21 samples, fitting returns, the deviation is zero exactly if all samples are the same and positive otherwise, the mean lies between the smallest and the largest sample, and its bits are those of the nearest integer, which fits the field. For a constant integer field the mean is exactly the number as long as window size times number is below 2^53. For float fields of finite numbers and windows of up to 2^29 samples fitting returns and the mean can be written; if all samples are the same number other than zero the mean is that number and the deviation zero. So, for a recorded mission whose floats are finite, nothing raises, and C126 holds with this arithmetic: headers and unchanged numbers other than float zeros are repaired in the next word. False for 64-bit fields: a clock that stands still at 1600000000000001 over seven words gets deviation 1/4, so it is never taken for certainly wrong and its own value is not taken for certain; a field of all ones gets the mean 2^64, which cannot be written (struct.error). False for float zeros: a received minus zero is taken for right, its sign bit is not repaired. Bytes among the samples raise TypeError, otherwise infinite or undefined floats ValueError; a constant field scores such floats 0 and an integer 1 exactly if it rounds to the mean, a varying one scores an integer the less the farther it is from the mean.", "quantifier": "all orders of addition, all rounding to nearest (ties either way), all samples and window sizes in the stated ranges, all recordings, received words, classifiers and LDPC decoders", "why_tests_cant": "Rounding errors depend on the values and on the order in which NumPy adds, which changes with length and machine; a test fixes one order and a few values.", "anchors": ["inference/statistical_models.py:FieldModel._update", "inference/statistical_models.py:FieldModel.classify_value", "inference/statistical_models.py:FieldModel.bitwise_mean", "inference/statistical_models.py:num2bits"]}
{"id": "C129", "title": "What a field model says about single bits", "statement": "p_of_sign_bit is 1 for unsigned types; for signed types it is the probability that a normally distributed reading with mean and deviation of the samples kept has the sign of their mean, which is at least one half, below 1, and one half only for mean 0; it is 1 if all samples are the same number other than 0. It is not always a probability: without samples it raises ZeroDivisionError although mean and deviation can be read, and if all samples are 0 it is NaN. std_significant_bits(n), for n > 0 and samples that are not all the same, is the least number k of binary places with 2^-k at most n deviations, hence at most 0 as soon as n deviations are 1 or more; without samples it raises ZeroDivisionError, for negative n ValueError, for n = 0 or samples all the same OverflowError. bitwise_classify_value returns the single number 0 for every value. No later read can tell whether one of the three was called.", "quantifier": "all field types, window sizes, histories of additions and reads, values and multiples", "why_tests_cant": "The answers depend on the whole history of the field through a cache; the claim about probability is about an integral over all readings.", "anchors": ["inference/statistical_models.py:FieldModel.p_of_sign_bit", "inference/statistical_models.py:FieldModel.std_significant_bits", "inference/statistical_models.py:FieldModel.bitwise_classify_value"]}
{"id": "C130", "title": "The points of a simulation and their numbers of errors in 64-bit floats", "statement": "For minflip <= maxflip, doubles between 0 and 1 that are equal or at least 2^-900 apart, and at most 2^50 points, in doubles with any nearest rounding: the scripts simulate nflips shares of errors, the first is minflip, the last of two or more is maxflip, they never decrease, stay between the two and are within 2^-51 of evenly spaced ones. The number of errors per word never decreases from point to point, is 0 for share 0, all bits for share 1 and otherwise the exact number rounded down or up; so if positions are drawn once for the last point every point uses its full number of them and the errors of a point are among those of the next. It is within one error, up to n 2^-50, of the share asked for, and is the number of the model over the rationals (C83, C99) unless n times the share is within n 2^-50 of a whole number. It is not always the whole number asked for: between 0 and 1/4 with 7 points, words of 1944 bits get 404 errors at the sixth point, which asks for 405.", "quantifier": "all roundings to a nearest double, all ranges and numbers of points as described, all word lengths below 2^53", "why_tests_cant": "Whether a rounded product falls below a whole number depends on the exact range, number of points and word length; tests see a few of them.", "anchors": ["runs/HC_eilat_July_2018/simulated_data_entropy_bitwise_decoder_weighted_model_averaged.py", "runs/HC_eilat_July_2018/simulated_data_mavlink_decoding.py", "runs/HC_eilat_July_2018/simulated_data_combined_decoder.py", "scripts/classifier_analysis.py"]}
{"id": "C131", "title": "Bits that never changed are repaired by the entropy decoder before the LDPC decoder sees the word", "statement": "Let an entropy decoder that learns have made any calls, returning or raising, and let both letters occur in the words it keeps of a cluster and a bit other than bit 0 of the codeword be predictable (entropy below the threshold). Of a word assigned to that cluster an LDPC decoder on log-likelihood ratios gets the received ratios, at the predictable bits plus the trust in the words kept times the log-odds of their corrected frequencies, clipped. If some ratio received is positive: a bit that was the same in all words kept (up to the share of flips of the channel) is handed over with that value whatever was received, as long as the magnitude received is at most 36 times the trust; with as many words as the centre of the trust function, at least two, this covers ratios up to 18. Bits not predictable and bits outside the model are decided as received. If the word sent has the likelier letters at the predictable bits, wrong decisions are only removed. The decisions are those of Bayes' rule with the learned probabilities to the power of the trust, for a given model with the given probabilities. False: that the word handed over never has more wrong decisions than the one received: a bit that changes for the first time is overwritten even if received right. With a bit-flipping decoder and method 0, on ratios of equal magnitude, a bit that never changed and was received wrong becomes exactly zero, so a decoder taking hard bits gets a zero there: constant ones are not repaired.", "quantifier": "all call histories, windows, classifiers, LDPC decoders, learned words and received words", "why_tests_cant": "Whether a bit is repaired depends on everything learned before and on all ratios of the word; tests run a few histories.", "anchors": ["decoders/classifiying_decoder.py:ClassifyingEntropyDecoder.decode_buffer", "decoders/classifiying_decoder.py:ClassifyingEntropyDecoder.update_model", "decoders/classifiying_decoder.py:ClassifyingEntropyDecoder.model_prediction", "decoders/classifiying_decoder.py:ClassifyingEntropyDecoder._sample_and_priors"]}
{"id": "C132", "title": "The simulated mission has a value for each of its 500 messages on every channel", "statement": "Whatever the random generator draws, the mission profile script does not raise and each of its ten channels has exactly 500 values: mode, status and error of the vehicle are those of the stages (50 messages on the surface, 100 of dive, 300 of cruise, 50 of resurfacing); the range is exactly 0 on the surface, then grows by 5 metres per message for 200 messages, goes to the end of the leg at right angles, comes back by 5 metres per message and stays, plus noise of deviation 2; the true range does not jump at the turns; azimuth, chamber pressure, chamber temperature, depth, water temperature and pressure are the specified functions of the message number plus the specified multiple of the draw; water temperature follows the depth without noise, pressure the depth with noise. False: that the depth dives as described: it reaches the depth of the cruise 12 messages after the status says that the dive is over, and it gains half a metre per message, not the sine of the diving angle of the 5 metres covered. False: that the depth noise has the given deviation: it is multiplied by it twice. Depths on the surface can be negative.", "quantifier": "all draws of the random generator and all messages", "why_tests_cant": "The channels are random; a run checks one draw, and shapes that do not fit would show only in the branch run.", "anchors": ["data_generation/mission_profile.py"]}
{"id": "C133", "title": "A buffer classifier recovers from a bad buffer, but not from a bad training", "statement": "Calls of classify may raise and be followed by further calls. Every call counts. The labels returned by the first min_data - 1 calls are -1 and those returned later are places of clusters the classifier still has; the clusters never count more buffers than there were calls that returned. After the training a call that raises changes nothing but the number of calls. After a training with mixed buffers (zeros and ones) of one length, the calls with a buffer of another length raise ValueError and the others return the labels, and leave the clusters, that they would without the former. Two training buffers of different lengths make every later call raise for good, and so does a constant training buffer if nothing has to be merged. After a training with any buffers of one length, constant ones among them, and with later buffers of that length, at most one call for each training buffer beyond the number of clusters asked for raises while clusters are being merged; from then on either all calls raise or all return. False: that a training buffer is kept when merging raises: with a constant buffer and a mixed one to be merged, the first call after training raises ValueError and the mixed buffer is in no cluster afterwards; every later call raises.", "quantifier": "all sequences of buffers, all sizes of training and numbers of clusters, both ways of classifying, both merge distances and all weights (labels and counts: all metrics)", "why_tests_cant": "What matters is the state left by a call that raised, after any history; a test looks at one call and its exception.", "anchors": ["inference/clustering.py: BufferClassifier.classify, BufferClassifier.merge_clusters, Cluster.add_sample, Cluster.merge_cluster"]}
{"id": "C134", "title": "How sure the weighted decoder is of its two models, and what that does to the second attempt", "statement": "Bayes estimator, with no more than 2 window_length - 2 words learned: the number of samples of a model is the number of words it has learned, and its variance is the mean over its bits of the variance, given the words, of the unknown chance of a one (density proportional to x^ones (1-x)^zeros on [0, 1]), times 12, over (1 - 2 flip probability)^2; it is positive and at most 3 / ((1 - 2 f)^2 (n + 3)) after n words. MLE estimator, after calls that all returned: the number of samples is the number of words in the window and the variance is twice the mean of p (1 - p) over the model bits. Scheme 4 multiplies each confidence by 1 - exp(-0.1 / variance), which is between 0 and 1, falls with the variance and, for Bayes, is at least 1 - exp(-(1 - 2 f)^2 (n + 3) / 30). With scheme 4 and the Bayes estimator the word handed to the LDPC decoder for the second time is, at every model bit of low entropy, the received value plus for each model its log ratio times its confidence times its weight, clipped; elsewhere it is the received value, clipped.", "quantifier": "all histories of received words, all LDPC decoders, all configurations (Bayes: any window; MLE: any window but 0), all thresholds, slopes, centres and flip probabilities other than 1/2", "why_tests_cant": "The variance is an integral over an unknown chance, after any number of words; a test compares a few numbers with the same formula.", "anchors": ["decoders/entropy_bitwise_decoder.py:EntropyBitwiseWeightedDecoder.update_model_a", "decoders/entropy_bitwise_decoder.py:EntropyBitwiseWeightedDecoder.update_model_b", "decoders/entropy_bitwise_decoder.py:EntropyBitwiseWeightedDecoder.model_prediction", "decoders/entropy_bitwise_decoder.py:EntropyBitwiseWeightedDecoder.decode_buffer"]}
{"id": "C135", "title": "The weighted decoder repairs bits that never changed before its second attempt, with every estimator and scheme", "statement": "After any history (Bayes estimator: at most 2 window_length - 2 words per model; MLE: all calls returned), if a word is not decoded at the first attempt and some bit other than bit 0 of the codeword is predictable (scheme 4: and both models have words): the LDPC decoder is called once more, with the received ratio plus, for each of the two models in which the bit is predictable, the log-odds of a zero there times the influence of the model, clipped. The influences are the confidences as they are (schemes 0, 2 and unknown numbers), weighed by their shares (1), only the first (3), only the second (5), or weighed by 1 - exp(-0.1 / variance) (4). With a positive clipping factor and some positive ratio received: at a bit that had the same value b in all words of both models the second attempt starts from b, whatever was received, if its magnitude is at most 36 times the sum of the influences; one model alone does so where the bit is not predictable in the other. Once both models have two words and as many as the centres of their confidences, the magnitudes repaired are at least 36 in scheme 0 and 18 in schemes 1, 3 and 5. Bits predictable in neither model are decided as received.", "quantifier": "all histories of received words, all LDPC decoders, both estimators, all confidence schemes, all windows, thresholds, centres, slopes and flip probabilities below 1/2, and all received words", "why_tests_cant": "It is about the sign of a sum of logarithms that depends on the whole history and on every received word, for six schemes and two estimators.", "anchors": ["decoders/entropy_bitwise_decoder.py:EntropyBitwiseWeightedDecoder.model_prediction", "decoders/entropy_bitwise_decoder.py:EntropyBitwiseWeightedDecoder.decode_buffer", "decoders/entropy_bitwise_decoder.py:EntropyBitwiseWeightedDecoder.update_model_a", "decoders/entropy_bitwise_decoder.py:EntropyBitwiseWeightedDecoder.update_model_b"]}
{"id": "C136", "title": "In the combined decoders the entropy model repairs bits that never changed, and is bounded by the clipping", "statement": "In both combined decoders, what the LDPC decoder is given at a model bit is what the field models made of it plus what the entropy model of the cluster adds. At a bit that had the same value b in all the words learned for the cluster, that is, towards b, the smaller of the clipping factor times the largest magnitude received and the trust in the words times more than 36; elsewhere it is never more than the clipping factor times the largest magnitude received, and nothing at bits that are not predictable. So the LDPC decoder starts from b where what the field models made of the bit is smaller than both; and from what the field models decided wherever that exceeds the clipping. Bits of no known field and no message are left by the field models as received, so with a clipping factor above 1 such a bit is repaired whenever its received magnitude is at most 36 times the trust. A cluster whose buffer structure is not known yet is decoded by its entropy model alone: the received word plus its additions, with the same repair at all its bits.", "quantifier": "all histories of received words, all classifiers and LDPC decoders, both combined decoders, learning or not, all windows, thresholds, trust curves, factors and flip probabilities below 1/2, and all received words", "why_tests_cant": "Which model wins at a bit depends on the whole history of both models and on real numbers received; tests sample a few.", "anchors": ["decoders/combined_decoder.py:CombinedDecoder.entropy_model_prediction", "decoders/combined_decoder.py:CombinedDecoder.decode_buffer", "decoders/combined_unified_decoder.py:CombinedUnifiedDecoder.decode_buffer", "decoders/combined_unified_decoder.py:CombinedUnifiedDecoder.entropy_model_prediction"]}
{"id": "C137", "title": "Which received bits the DUDE decoder overrules, and that with its default channel it overrules none", "statement": "After any history, a word decoded by the DUDE decoder with a cluster has its model bits overruled (denoised bit different from the received one) exactly where the magnitude received is smaller than the trust in the cluster times the log-odds that the value is wrong, computed from how often each value was received earlier after the same k values (for a received one: not larger). That needs evidence: the other value was received in that context more than (1 - 2f)/f times, and more often than this value by the factor (f^2 + (1-f)^2)/(2f(1-f)), where f is the flip probability. So with the default flip probability 0 the denoised bits are always the received ones. A bit that had the same value in all n earlier words of the cluster and is received differently is repaired only if n - k exceeds (1-2f)/f + f/(1-f) (about 98 words at one percent), and then exactly below the magnitude above. A value received in a context never seen before is never overruled, so after one wrong value of such a bit its next k values are believed. Bits outside the model are decided as received.", "quantifier": "all histories of received words, classifiers and LDPC decoders, context lengths, flip probabilities in [0, 1/2), trust curves, positive clipping factors and received words", "why_tests_cant": "The decision is the sign of a real number that depends on context counts over the whole history; a test sees a few histories.", "anchors": ["decoders/classifying_DUDE_decoder.py:ClassifyingDudeDecoder.decode_buffer", "decoders/classifying_DUDE_decoder.py:ClassifyingDudeDecoder.model_prediction", "inference/dude.py:OnlineDude.denoise_sample", "inference/dude.py:OnlineDude.smooth_posterior"]}
{"id": "C138", "title": "What training a buffer model field by field learns, compared with giving it whole buffers", "statement": "A buffer model trained the way the segmentation example does, with add_sample for every entry of get_msg_fields of each buffer, never raises on buffers with at least one message each and no array messages. Afterwards it holds under every name the window of the last numbers the MAVLink parser decodes under that name from each buffer: a name that occurs in several messages of a buffer is learned once per buffer, from the last one. It has a model exactly for the names of payload numbers, so none for the numbers of the headers (start byte, length, sequence number, system, component, message id), and its model size stays 0 however many buffers it saw. Given whole with add_buffer, the same buffers leave the same samples under every payload name that occurs at most once per buffer, but they are counted. The first buffer without a message ends the training with a ValueError, after which the model is what the buffers before it left.", "quantifier": "all sequences of byte strings with the messages found in them, window sizes and names", "why_tests_cant": "It relates two ways of training for every sequence of buffers; a test compares a few recordings.", "anchors": ["scripts/buffer_segmentation_example.py", "inference/buffer_segmentation.py:BufferSegmentation.get_msg_fields", "inference/statistical_models.py:BufferModel.add_sample"]}
{"id": "C139", "title": "What an entropy decoder learns when it is the first decoder of a turbo decoder", "statement": "A call of a turbo decoder that returns uses its decoders in turns: either the first one succeeded after both had failed equally often, or the second one succeeded after the first had failed as often as it was used, or both failed in every one of the allowed rounds; the first run is always on the received word and the states of the decoders afterwards are those after these runs. So an entropy decoder used as the first decoder learns one word per round, not one per received word: its own estimate only when it is the one that succeeds, and never the estimate of the second decoder. Words that are never decoded each fill as many entries of its window as there are rounds, the first of them being the received word itself; when the second decoder adds nothing they are all that same word. Without a classifier and with several clusters every round of a single word goes to the next cluster. Over an LDPC decoder without soft output the turbo decoder raises a ValueError as soon as the first run does not succeed.", "quantifier": "all received words, states and histories of the two decoders, second decoders, numbers of rounds and configurations of the entropy decoder", "why_tests_cant": "It is about every course a call can take and every pair of stateful decoders; a test runs a few words through one pair.", "anchors": ["decoders/turbo.py:TurboDecoder.decode_buffer", "decoders/classifiying_decoder.py:ClassifyingEntropyDecoder.decode_buffer"]}
{"id": "C140", "title": "Scattered bit errors in a frame: up to three are noticed, four need not be", "statement": "Take a v1 frame that decodes successfully. Any byte string of the same length with the same marker and id that differs from it in one, two or three bits, or in any odd number of bits, wherever they are (length, sequence number, sender, payload, checksum), is rejected with MAVError. Four bits are not always noticed: in every accepted frame, the lowest bit and bit 4 of a payload byte, bit 3 of the next byte and the lowest bit of the one after can be inverted together, at any place of the payload, and the frame is still accepted; the segmentation of a buffer then reports the damaged message with all others, and no unknown byte. When one of the inverted bits is in the id, two can be enough to turn a packed message into one of another kind. In a buffer of messages standing back to back, one to three inverted bits, or an odd number, that spare the marker and id of their message and make no new marker, cost that message and nothing else; a receiver of the stream gets all other messages and the damaged frame as one bad item, also when new markers appear, if the length was spared, and gets the frame with the four inverted bits as a message.", "quantifier": "all accepted frames of any length, all positions of the inverted bits, all messages before and after", "why_tests_cant": "There are tens of millions of ways to invert three bits of one frame, and the odd patterns cannot be listed at all.", "anchors": ["mavlink_utils/HC_dialect.py:MAVLink.decode", "mavlink_utils/HC_dialect.py:MAVLink.parse_buffer", "inference/buffer_segmentation.py:BufferSegmentation.segment_buffer"]}
{"id": "C141", "title": "Which damaged headers the nearest-header search repairs", "statement": "A valid header is sent and six bytes are received. If fewer bits of the length and id bytes are wrong than half the distance from the sent header to the valid header of any other type, hamming_distance_2_valid_header reports the sent type, however damaged the marker is, and FrameHeader.from_buffer with that type restores marker, length and id; with sequence number and sender as sent the whole header comes back. For exactly 74 of the 155 message types (listed in the specification) every header with at most one wrong bit in length and id is reported as its own type. In each of the other 81 types there is a header with exactly one wrong bit, all else as sent, that is reported as another type and turned into a valid header of that type.", "quantifier": "all valid headers, all six-byte strings received", "why_tests_cant": "There are 2^48 strings that can be received for every header; the claim about single errors is an exact boundary over all types.", "anchors": ["protocol_meta/msg_header.py:hamming_distance_2_valid_header", "protocol_meta/msg_header.py:FrameHeader.from_buffer", "protocol_meta/protocol_meta.py:MavlinkDialectMeta"]}
{"id": "C142", "title": "What a model loaded from a file without its size can and cannot do", "statement": "Take any model file written by save and remove its model_size entry, which is the shape of the 2018 model files in the repository. load accepts it: window, description, field names, samples and every answer of the fields are as saved, and the model size is None. Such a model can never be taught: whatever sequence of buffers is given to add_buffer, every call raises, a TypeError when the buffer fits its structure, and the model stays exactly as loaded; saving and loading it again does not give it a size. A MAVLink decoder with learning off gives, call by call over any run, the same results and hands the same words to the LDPC decoder whatever the size is. A file with a size is loaded with it and learns on from there as a model of that size.", "quantifier": "all files, all histories of the saved model, all sequences of buffers and structures, all decoder settings with learning off, all runs", "why_tests_cant": "The claims range over all histories before saving, all sequences of calls after loading and all runs of the decoder.", "anchors": ["inference/statistical_models.py:BufferModel.load", "inference/statistical_models.py:BufferModel.save", "inference/statistical_models.py:BufferModel.add_buffer", "decoders/mavlink_decoder.py:MavlinkRectifyingDecoder"]}
{"id": "C143", "title": "Decoders whose buffer structures name fields the model has never seen are stuck", "statement": "If every cluster of a MAVLink decoder without a classifier has a buffer structure with a field its model knows nothing about, every call of any run raises before the LDPC decoder is asked; nothing is learned, so this never changes, whether the decoder learns or not. The combined decoders behave the same, with a classifier too, except that calls during the training of the classifier are plain LDPC decoding. In particular a learning decoder that is given its structures with set_buffer_structures before it has learned anything raises a TypeError at every call, which is what the simulation scripts do with --learn 1 and --cluster 0 and the experiment scripts with --learn 1. And a model trained field by field (C138) makes every call raise whatever the structures, since it has no header fields. A decoder with a predefined model that is given no structures never uses the model: with one segmentation iteration each call returns what the LDPC decoder makes of the received word (the simulation script with --learn 0 and --cluster 1).", "quantifier": "all models, structures, settings, LDPC decoders, runs of received words", "why_tests_cant": "The claim is that no later call ever recovers, over runs of any length and all models.", "anchors": ["decoders/mavlink_decoder.py:MavlinkRectifyingDecoder.set_buffer_structures", "decoders/mavlink_decoder.py:MavlinkRectifyingDecoder.model_prediction", "decoders/combined_unified_decoder.py:CombinedUnifiedDecoder.mavlink_model_prediction", "inference/statistical_models.py:BufferModel.predict"]}
{"id": "C144", "title": "What a fitted mixture says about the data and what it does not depend on", "statement": "After one or more EM iterations of BMM on any data, the mixture gives every feature the mean it has in the data (weights times means, added over the components); a single component has just the means of the data and weight 1. The order of the samples does not matter, nor that each is given the same number of times: the fitted parameters, the score and the predictions are the same. Starting values in another order give the same components in that order and the same scores. A feature that has the same value in all training data has that value as its mean in every component and plays no part in predictions, whatever value it has in the samples to be predicted. Components that start with proportional values never part, and predict never returns the later one. False: that data with a single feature can be told apart: all components stay the same, with weight 1/K, and predict returns 0 for every sample, because the starting values are divided by their sum over the features.", "quantifier": "all data, numbers of components, features and samples, starting values, numbers of iterations, orders and repetitions of the samples, samples to be predicted", "why_tests_cant": "Starting values are random and not seeded, and the claims range over all data and numbers of iterations.", "anchors": ["inference/bmm.py:BMM.fit", "inference/bmm.py:BMM.predict", "inference/bmm.py:BMM.score", "inference/bmm.py:BMM.init_params", "inference/bmm.py:BMM.normalize_mu"]}
{"id": "C145", "title": "A buffer classifier tells apart kinds of buffers that differ enough", "statement": "Let every buffer given to BufferClassifier be of a kind: a kind fixes the values of some bits and lets at most V bits vary, and two kinds fix at least D bits to different values. Let the number of clusters be the number of kinds that occur in the training. If V < D, and V times the largest possible weight (1, half the number of training buffers, or the square root of that, depending on the weight scheme) is less than D, then classify returns -1 for every training buffer and afterwards, for every buffer, the number of its kind in the order in which the kinds first occurred in the training; so the training never merges different kinds, and later samples never move a cluster towards another kind. This holds for Hamming distance and for log-likelihood, and for Hellinger distance and symmetrised Kullback-Leibler divergence as merging distance. In particular, if the training consists of copies of as many different buffers as there are clusters, each later copy gets the label of its original, and different originals have different labels. False without the condition on the weights: with linear weights, the default, a kind with a single varying bit and many training buffers is split, and two kinds with few training buffers that differ in two fixed bits get the same label. With log-likelihood the labels stay right when every buffer after the training has up to e of the fixed bits wrong, however many such buffers come and although their wrong bits go into the clusters, if 52 log 2 (V + 2e) < (D - e) log((D - e) / (e + (D - e) 2^-52)); for e = 0 this is V < D. False for Hamming distance: kinds that differ in 34 bits are confused after 32 buffers with a single wrong bit each.", "quantifier": "all kinds, orders and numbers of training buffers that are not constant, all later buffers of these kinds, all values of varying bits, all metrics and weight schemes", "why_tests_cant": "The claim is about every training sequence and every order of merging that the distances can cause, and about samples that are added without end.", "anchors": ["inference/clustering.py:BufferClassifier.classify", "inference/clustering.py:BufferClassifier.merge_clusters", "inference/clustering.py:Cluster.merge_cluster", "inference/clustering.py:Cluster.add_sample", "utils/information_theory.py:hellinger"]}
{"id": "C146", "title": "Which isolated errors the DUDE denoisers correct, and that they then introduce none", "statement": "Let a binary signal be such that the k symbols before and the k symbols after a position tell the symbol there, even if two of them are read wrongly, and let any two errors be more than 2k apart. If, for every error with full surroundings, the number of symbols with the same surroundings that were received wrongly, times (1-f)^2+f^2, is less than 2f(1-f) times the number of those received correctly together with their surroundings, then DUDE with flip probability f returns the signal at all positions with full surroundings, and what was received at the other ones. An error for which the first of these numbers is larger is not corrected. A constant signal of length n with m errors is restored if m((1-f)^2+f^2) < 2f(1-f)(n-2k-(2k+1)m). OnlineDude, where the k symbols before tell the symbol and errors are more than k apart, corrects an error as soon as the symbols received so far satisfy the inequality, and keeps correct symbols unless they are outnumbered; those right after an error are always kept. False without the condition on the surroundings: in an alternating signal a correct symbol is made wrong.", "quantifier": "all signals, lengths, context lengths, error positions and flip probabilities in [0, 1/2)", "why_tests_cant": "What is decided at a position depends on all errors in the whole sequence.", "anchors": ["inference/dude.py:DUDE.denoise_sequence", "inference/dude.py:OnlineDude.denoise_sequence", "inference/dude.py:OnlineDude.denoise_sample"]}
{"id": "C147", "title": "An entropy decoder sorts words by kind and repairs the fixed bits of each kind", "statement": "Let ClassifyingEntropyDecoder with clustering on, an LDPC decoder on log-likelihood ratios and as many clusters as there are kinds get words whose model bits are of several kinds, as in C145. During the training of the classifier the fixed bits are received right. Afterwards up to e of the fixed bits of every word may be received wrong, with V, D and e as in C145. Let what is learned from each word (the estimate if the LDPC decoder succeeded, else the bits received) be right in the fixed bits; this holds for a decoder that never succeeds if the words were received right. Then the words kept for a cluster are those of one kind, and after at least two words of a kind, and at least as many as the centre of the trust function, the window not being shorter, the next word of that kind is handed to the LDPC decoder with all fixed bits right whose received magnitude is at most 18, in particular those received wrong, whatever other kinds came in between. With an LDPC decoder that corrects every word with at most T wrong bits nothing need be assumed about what is learned: let at most R bits outside the model be wrong in every later word, V + R <= T, all magnitudes be at most 18, and let the first words of each kind (two, and as many as the centre) have at most T - V - R wrong fixed bits; then every later word is decoded, with success, to the word sent and gets the label of its kind, although from then on up to e fixed bits more than the LDPC decoder can correct may be wrong.", "quantifier": "all kinds, words, orders, LDPC decoders, decoder parameters with threshold > 0, flip probability in [0, 1/2), slope >= 0 and clipping factor > 0, and both merging distances and all weights", "why_tests_cant": "The word handed over depends on all earlier words through the classifier, the clusters and the window.", "anchors": ["decoders/classifiying_decoder.py:ClassifyingEntropyDecoder.decode_buffer", "inference/clustering.py:BufferClassifier.classify", "decoders/classifiying_decoder.py:ClassifyingEntropyDecoder.update_model", "decoders/classifiying_decoder.py:ClassifyingEntropyDecoder.model_prediction"]}
{"id": "C148", "title": "The weighted decoder goes on decoding words with more errors than the LDPC decoder corrects", "statement": "Let EntropyBitwiseWeightedDecoder (Bayes estimator with at most 2 window_length - 2 words, or MLE; any confidence scheme but 4) get words of which some bits are always the same, both values occurring among them, all consisting of MAVLink messages, with ratios of magnitude at most 18, one of them positive. Let the LDPC decoder correct up to T wrong bits, and never report success with a wrong word when at most E bits are wrong. If the first words (two, and as many as the centres of the two confidences, the window of MLE not being shorter) have at most T wrong bits, and later ones at most E, of which at most T are at bits that vary or lie outside the model, then every call returns the word sent, with success; so the constant bits may have E - T more errors than the LDPC decoder corrects.", "quantifier": "all sequences of words, LDPC decoders that correct T and detect E errors, both estimators, all schemes but 4, all windows, centres, slopes >= 0, thresholds > 0, flip probabilities in [0, 1/2) and clipping factors > 0", "why_tests_cant": "Every call depends on what all earlier calls learned; the claim is an invariant over unbounded sequences of words with arbitrary error patterns.", "anchors": ["decoders/entropy_bitwise_decoder.py:EntropyBitwiseWeightedDecoder.decode_buffer", "decoders/entropy_bitwise_decoder.py:EntropyBitwiseWeightedDecoder.update_model_a", "decoders/entropy_bitwise_decoder.py:EntropyBitwiseWeightedDecoder.update_model_b", "decoders/entropy_bitwise_decoder.py:EntropyBitwiseWeightedDecoder.model_prediction"]}
{"id": "C149", "title": "A decoder that learns from its own answers does as well as one that is told the words sent", "statement": "Let a learning ClassifyingEntropyDecoder on log-likelihood ratios get words with any labels below n_clusters (negative while the classifier trains), every sent word having both letters among its model bits and every received word a positive ratio, and let the LDPC decoder correct up to T wrong bits. If each received word has at most T wrong bits after adding what the model of the words sent before it with its label (the last window_length) says about the structural bits, then every call returns the word sent, with success and its label. In particular this holds whenever the bits received wrong that the model does not outweigh, plus the structural bits that are now the less likely letter, are never more than T.", "quantifier": "all sequences of sent and received words, all label sequences any classifier gives, LDPC decoders that correct T errors, windows, centres, slopes, thresholds, flip probabilities and clipping factors > 0", "why_tests_cant": "The model at each call consists of the decoder's own earlier answers; that one wrong answer never starts a chain of further ones is an invariant over unbounded histories.", "anchors": ["decoders/classifiying_decoder.py:ClassifyingEntropyDecoder.decode_buffer", "decoders/classifiying_decoder.py:ClassifyingEntropyDecoder.model_prediction", "decoders/classifiying_decoder.py:ClassifyingEntropyDecoder.update_model"]}
{"id": "C150", "title": "A simulation whose words have fixed bits reports that the entropy decoder decodes everything", "statement": "One point of simulated_data_classifying_entropy_decoder.py over the binary symmetric channel (10^-7 <= p < 1/2): words of N bits with given positions inverted, a plain LDPC decoder and a learning ClassifyingEntropyDecoder around one of the same kind, which corrects up to T wrong bits. Let the words of each label (any labels the decoder gives) agree at certain bits of the model, one of them not bit 0, and let every word have both letters among its model bits and be received with some zero. Let T suffice for the number of other model bits plus the inverted bits outside the model, for the first words of each label (two, and as many as the centre of the confidence; the window is no shorter) also for the inverted agreeing bits, and for words without a label for all inverted bits. Then the step reports success rate 1 and bit error rate 0 for the entropy decoder, however many agreeing bits of later words are inverted, and the logged recover rate is 1 if the LDPC decoder alone missed any word and 0 otherwise.", "quantifier": "all sequences of words and error positions, labels, LDPC decoders that correct T errors, p in [10^-7, 1/2), windows, centres, slopes >= 0, thresholds > 0, flip probabilities in [0, 1/2) and clipping factors > 0", "why_tests_cant": "It bounds what a whole simulation reports for every choice of words and errors; a test sees the random errors of one run.", "anchors": ["runs/HC_eilat_July_2018/simulated_data_classifying_entropy_decoder.py:simulation_step", "decoders/classifiying_decoder.py:ClassifyingEntropyDecoder.decode_buffer", "inference/entropy_mle.py:bsc_llr"]}
{"id": "C151", "title": "A rectifying decoder goes on decoding telemetry with more errors than the LDPC decoder corrects", "statement": "A learning MavlinkRectifyingDecoder around an LDPC decoder that corrects up to T wrong bits, starting with an empty model. Telemetry words are sent; those of a cluster consist of the same messages (the bits after them in the first word of a cluster hold no message), and the decoder takes each word for one of its cluster. The first word of a cluster is received with at most T wrong bits. A later word may have any number of wrong bits as long as at most T bits are hard: bits received wrong in fields whose recent numbers varied, in messages found in the received word or outside all fields, and bits in which a field that never changed within the window changes now. Every such field is constant (with exact statistics) or varies (with positive deviation). Then every call returns the word sent, with success and the label of its cluster. A bit of a field that stays constant, outside the messages found, is never hard, however it is received. For buffers made from a recording, for one, two or three clusters sent in turn and a decoder without classifier, the labels are right by themselves: the whole mission is received.", "quantifier": "all sequences of words of packed messages, recordings, received words, classifiers, LDPC decoders correcting T errors, windows, thresholds, centres and slopes, positive factors and any number of iterations >= 1", "why_tests_cant": "Each word repaired depends on all earlier ones having been learned right; that this never breaks down holds for every sequence of numbers and errors only by induction over the history.", "anchors": ["decoders/mavlink_decoder.py:MavlinkRectifyingDecoder.decode_buffer", "decoders/mavlink_decoder.py:MavlinkRectifyingDecoder.model_prediction", "decoders/mavlink_decoder.py:MavlinkRectifyingDecoder.decode_and_update_model", "inference/statistical_models.py:BufferModel.predict", "inference/statistical_models.py:BufferModel.add_buffer"]}
{"id": "C152", "title": "The simulation reports success rate 1 for the rectifying decoder while the errors beyond the LDPC decoder lie in constant fields", "statement": "A point of the simulation of the rectifying decoder without learning and without clustering: a model made from some buffers is loaded, the structures of the parts of one buffer are set, and words of these parts are sent in turn over a binary symmetric channel with error probability below one half. The LDPC decoder inside corrects up to T wrong bits, and every field of the structures is constant in the buffers of the model (with exact statistics) or varies. If of no word more than T bits are missed - bits inverted in fields that vary, in messages found in the received word or outside all fields, and bits in which a field that is constant in the model has another value now - then setting up the decoder and the step raise nothing, the step reports success rate 1 and bit error rate 0 for the rectifying decoder, however many bits are inverted in constant fields, for the LDPC decoder alone the rate of the words it decodes, and the recover rate 1 if that is below 1 and 0 otherwise. Not so with the script's default options, which switch clustering on and learning off: the decoder then never gets a structure, and whatever the model loaded, the words and the errors, a step that reports anything reports the same rates for both decoders and a recover rate of 0. Without clustering and with learning the structures are set but the model is empty, and a step ends in a TypeError at the first word, whatever it is. (With both, the model's name is not assigned, C83.)", "quantifier": "all models made from buffers, structures, words, inverted bits, error probabilities, LDPC decoders correcting T errors (a second one with other settings works alone), thresholds, centres and slopes, positive factors and any number of iterations >= 1", "why_tests_cant": "The report is a function of all words, errors and the model loaded; that no call raises and none goes wrong under the stated budget holds for each of them only by proof.", "anchors": ["runs/HC_eilat_July_2018/simulated_data_mavlink_decoding.py:simulation_step", "decoders/mavlink_decoder.py:MavlinkRectifyingDecoder.decode_buffer", "decoders/mavlink_decoder.py:MavlinkRectifyingDecoder.set_buffer_structures", "decoders/mavlink_decoder.py:MavlinkRectifyingDecoder.model_prediction"]}
{"id": "C153", "title": "A combined decoder with a predefined field model goes on decoding words with more errors than the LDPC decoder corrects", "statement": "A combined decoder of either kind (combined or unified) is given a field model made from buffers and a buffer structure for each cluster, and learns its entropy models from its own answers. The LDPC decoder inside corrects up to T wrong bits. Words are sent, each call takes its word for the cluster it belongs to, and every word has a zero and a one among its model bits. If of each word the decoder would hand over - the word of C85, for the model bits of the words sent before in that cluster - at most T bits are wrong, then every call returns the word sent, with success and that cluster, however many bits were received wrong. At most these bits are wrong in it: bits the field models decide wrong, unless the entropy model is used, the bit never changed in the words sent before and has the same value now, and the field models' magnitude there is below the clipping bound and at most 36 times the trust in these words; and steady model bits that changed before or change now, once the entropy model is used.", "quantifier": "all field models made from buffers, buffer structures, codes, LDPC decoders correcting T wrong bits and returning n bits, sequences of words, received words, classifiers or counters, windows, thresholds > 0, clipping factors >= 0, bit flip probabilities below 1/2, centres >= 0, slopes and factors", "why_tests_cant": "The entropy models are a function of all words decoded so far, so one wrong answer could spoil every later one; that none is wrong holds for all sequences only by induction.", "anchors": ["decoders/combined_decoder.py:CombinedDecoder.decode_buffer", "decoders/combined_unified_decoder.py:CombinedUnifiedDecoder.decode_buffer", "decoders/combined_decoder.py:CombinedDecoder.update_entropy_model", "decoders/combined_decoder.py:CombinedDecoder.set_buffer_structures"]}
{"id": "C154", "title": "A combined decoder that learns everything goes on decoding words with more errors than the LDPC decoder corrects", "statement": "A combined decoder of either kind starts with nothing and learns buffer structures, field models and entropy models from its own answers. The LDPC decoder inside corrects up to T wrong bits. Words are sent, each call takes its word for the cluster it belongs to, every word has a zero and a one among its model bits and is long enough for the messages found in the first word of its cluster. The first word of each cluster is received with at most T wrong bits. For each later word, the statistics of the numbers sent before exist, and of the word the decoder would hand over - the word of C85 for the numbers and the model bits of the words sent before - at most T bits are wrong. Then every call returns the word sent, with success and that cluster, however many bits of the later words were received wrong. Which bits can be wrong in the word handed over is said in C153.", "quantifier": "all codes, LDPC decoders correcting T wrong bits and returning n bits, statistics, sequences of words, received words, classifiers or counters, windows, thresholds, clipping factors, bit flip probabilities, centres >= 0, slopes and factors", "why_tests_cant": "Structures, field models and entropy models are functions of all words decoded so far, so one wrong answer could spoil every later one; that none is wrong holds for all sequences only by induction.", "anchors": ["decoders/combined_decoder.py:CombinedDecoder.decode_buffer", "decoders/combined_decoder.py:CombinedDecoder.decode_and_update_model", "decoders/combined_unified_decoder.py:CombinedUnifiedDecoder.decode_buffer", "decoders/combined_unified_decoder.py:CombinedUnifiedDecoder.decode_and_update_model"]}
{"id": "C155", "title": "The comparison of four decoders reports success rate 1 for the combined decoder while its LDPC decoder can correct what is handed over", "statement": "A point of simulated_data_combined_decoder.py: the LDPC decoder, a combined decoder with a predefined field model, structures set and debug on, and other decoders get the same words over a binary symmetric channel, each word with the same number of inverted bits. The combined decoder takes each word for one of its cluster, and of the word it would hand over (C85, C153) at most as many bits are wrong as its LDPC decoder corrects; the other decoders raise nothing. Then the step raises nothing, in spite of debug, and reports success rate 1 and bit error rate 0 for the combined decoder, however many bits were inverted, for the LDPC decoder alone the rate of the words it decodes, and the logged recovery rate is 1 if that is not 1 and left out otherwise. Expectation that fails: with the option to learn the model (--learn 1) and one cluster, or several without a classifier, no step reports anything. The structures are set although the field model is empty, and the combined decoder raises for the first word, whatever the words, the errors and the other decoders.", "quantifier": "all field models made from buffers, buffer structures, codes, LDPC decoders correcting T wrong bits, sequences of words and inverted positions, error probabilities, any number and kind of other decoders, classifiers, windows, thresholds, factors, centres >= 0 and slopes", "why_tests_cant": "It says what a whole simulation reports for every choice of words and errors, with models that are functions of all words decoded so far; a test sees the randomly drawn ones.", "anchors": ["runs/HC_eilat_July_2018/simulated_data_combined_decoder.py:simulation_step", "decoders/combined_unified_decoder.py:CombinedUnifiedDecoder.decode_buffer", "decoders/combined_unified_decoder.py:CombinedUnifiedDecoder.set_buffer_structures"]}
{"id": "C156", "title": "A decoder gets the same rates in a simulation of two decoders and in a comparison of more", "statement": "Whichever script compares a decoder with others it reports the same for it. If a point of a script that compares any number of decoders reports rates, then the point of a script that simulates two decoders, with any two of the compared ones in either order or one of them twice, and the same words, inverted positions and error probability, raises nothing and reports for these two the same success and bit error rates, the same number of words, buffer length and raw error rate. Conversely, if the simulation of two decoders reports rates, the comparison of exactly these two reports the same, and logs the recovery rate of the simulation, or nothing if the first decoder decoded every word. Likewise over a channel with Gaussian noise: if the comparison with bit-flipping decoders reports rates, the simulation of two of its decoders at the same signal to noise ratio, given in decibels or not, over the same words and noise reports the same for these two.", "quantifier": "all decoders (any function of its state and what it is given, also one that raises), any number of them, words, sets of inverted positions, error probabilities, noise, positive signal to noise ratios and sizes", "why_tests_cant": "It relates the results of two programs for every decoder, every sequence of words and every choice of errors; a test compares one run with randomly drawn errors.", "anchors": ["runs/HC_eilat_July_2018/simulated_data_mavlink_decoding.py:simulation_step", "runs/HC_eilat_July_2018/simulated_data_pretrained_model.py:simulation_step", "runs/HC_eilat_July_2018/simulated_data_combined_decoder.py:simulation_step", "runs/HC_eilat_July_2018/simluated_data_entropy_bf_decoders.py:simulation_step", "runs/HC_eilat_July_2018/classifying_entropy_decoder_over_awgn_channel.py:simulation_step"]}
{"id": "C157", "title": "The DUDE decoder decodes words with more errors than the LDPC decoder corrects, when errors in the bits that should not change are rare", "statement": "Take a model bit that should always have the same value v. In the n words received earlier with the same label it was received wrong m times; any two wrong receptions, including the word received now, are more than k words apart, k the context length; and n is at least k + (k + 2) m. Then if it is received right now it is never overruled; and if it is received wrong it is repaired whenever its magnitude is below the trust in n + 1 words times the log-odds that a value is wrong after n - k - (k + 1) m receptions of the other value against m + 1 of this one. Hence, with a set of such bits, if the other model bits and the wrong bits outside the model are together not more than the LDPC decoder corrects, the call returns the word sent with success, however many bits of the set were received wrong. With one cluster this holds for every word of a run on its own, whatever was sent and received in the other words and whether or not they were decoded, because the denoisers see received words only.", "quantifier": "all histories of received words, classifiers, LDPC decoders correcting T wrong bits, codes, context lengths, flip probabilities in [0, 1/2), trust curves, positive clipping factors, sets of model bits and received words", "why_tests_cant": "It bounds counts over unbounded histories of any words for any set of bits and any LDPC decoder; a test sees one history.", "anchors": ["decoders/classifying_DUDE_decoder.py:ClassifyingDudeDecoder.decode_buffer", "decoders/classifying_DUDE_decoder.py:ClassifyingDudeDecoder.model_prediction", "inference/dude.py:OnlineDude.denoise_sample", "inference/dude.py:OnlineDude.smooth_posterior"]}
{"id": "C158", "title": "How many words the DUDE decoder needs before it can overrule a received bit", "statement": "Let f be the flip probability the DUDE decoder is told and k its context length. A model bit received with log likelihood ratio v is overruled only if the other value was received after the same k values more than exp(|v|) (1 - 2 f) / f times in the earlier words of the cluster, and therefore only if the cluster has more than k plus this number of words. Over the binary symmetric channel with flip probability p, the decoder being told p as the simulation does, no bit of the word is overruled while the cluster has at most k + (1 - p) (1 - 2 p) / p^2 words: 837 words with the simulation's smallest default p of 3.3% and its default context of 8. Until then the bits handed to the LDPC decoder are the bits received, and an LDPC decoder that looks only at signs returns exactly what it returns without the model.", "quantifier": "all histories of received words, clusters, classifiers, LDPC decoders, context lengths, flip probabilities in [0, 1/2), trust curves, positive clipping factors and received words", "why_tests_cant": "It denies an effect for every history up to a length that depends on a real parameter; a test sees one history with one parameter.", "anchors": ["decoders/classifying_DUDE_decoder.py:ClassifyingDudeDecoder.decode_buffer", "decoders/classifying_DUDE_decoder.py:ClassifyingDudeDecoder.model_prediction", "inference/dude.py:OnlineDude.denoise_sample", "inference/dude.py:OnlineDude.smooth_posterior", "runs/HC_eilat_July_2018/simulated_data_classifying_dude_decoder.py:simulation_step"]}
{"id": "C159", "title": "With few words the simulation cannot tell the DUDE decoder from an LDPC decoder that looks only at signs", "statement": "Simulate the DUDE decoder and the plain LDPC decoder over the binary symmetric channel with flip probability p, 0 < p < 1/2, the DUDE decoder being told p, and let both use an LDPC decoder whose estimate and success flag depend only on the signs of its input. With at most k + (1 - p) (1 - 2 p) / p^2 + 1 words, k the context length, every report of the simulation gives both decoders the same success rate and the same bit error rate, and the recover rate is 0, whatever was sent, which bits were wrong, the number of clusters and the classifier. With one cluster and estimates as long as the words the simulation does report.", "quantifier": "all sequences of words with their error positions, numbers of clusters, classifiers, LDPC decoders that look only at signs, context lengths, flip probabilities, trust curves and positive clipping factors", "why_tests_cant": "It says two decoders with hidden, learning state are indistinguishable on every simulation up to a length that depends on p; a simulation is one sequence.", "anchors": ["decoders/classifying_DUDE_decoder.py:ClassifyingDudeDecoder.decode_buffer", "inference/dude.py:OnlineDude.denoise_sample", "runs/HC_eilat_July_2018/simulated_data_classifying_dude_decoder.py:simulation_step"]}
{"id": "C160", "title": "In the long run the DUDE decoder repairs every bit that is received wrong rarely", "statement": "Let f be the flip probability the DUDE decoder is told, k its context length, and let the slope of its trust curve be positive. For every magnitude below log(2^52 + 1) there is a number N of words with this effect. Take a model bit that should always have the value v, in a cluster with n >= N earlier words: it was received right the last k times, and wrong m times in all with (1 - f)(m + 1) <= f (n - k - (k + 1) m), a share of about f / (1 + f k). Then it is handed to the LDPC decoder with the value v, whether it is received right now or wrong with at most that magnitude. If the other model bits and the wrong bits outside the model are not more than the LDPC decoder corrects, the word sent is returned with success. N depends on the parameters only, not on the classifier, the code, the LDPC decoder or the words. Over the binary symmetric channel with a flip probability of at least the machine epsilon, which the decoder is told, this holds in a run with one cluster for every word from the N-th on, without a condition on magnitudes. (C158 says that before a certain number of words no bit is overruled at all.)", "quantifier": "all parameters with a positive slope, histories, classifiers, codes, LDPC decoders, sets of model bits and received words after the N-th", "why_tests_cant": "It is a limit statement: one N for all later words of all histories, decoders and codes.", "anchors": ["decoders/classifying_DUDE_decoder.py:ClassifyingDudeDecoder.decode_buffer", "decoders/classifying_DUDE_decoder.py:ClassifyingDudeDecoder.model_prediction", "inference/dude.py:OnlineDude.denoise_sample", "inference/dude.py:OnlineDude.smooth_posterior"]}
{"id": "C161", "title": "The success rate the simulation reports for the DUDE decoder in the long run", "statement": "Simulate the DUDE decoder with one cluster and a positive slope over the binary symmetric channel with a flip probability of at least the machine epsilon and below 1/2, which the decoder is told. There is a number N that depends on its parameters only, such that for every M >= N and every simulation of n words: if in every word from the M-th on the model bits that were not received right the last k times, or were received wrong in more than a share of about f / (1 + f k) of the earlier words, are together with the wrong bits outside the model not more than the LDPC decoder corrects, then the success rate reported for the DUDE decoder is at least 1 - M / n, however many bits of the words were received wrong, whatever the other decoder of the simulation does.", "quantifier": "all parameters with a positive slope, LDPC decoders, codes, numbers M >= N, sequences of words with their error positions, and other decoders", "why_tests_cant": "One N for all simulations of any length, with any code and LDPC decoder; a simulation is one sequence.", "anchors": ["decoders/classifying_DUDE_decoder.py:ClassifyingDudeDecoder.decode_buffer", "inference/dude.py:OnlineDude.denoise_sample", "runs/HC_eilat_July_2018/simulated_data_classifying_dude_decoder.py:simulation_step"]}
