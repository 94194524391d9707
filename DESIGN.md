# Formal model of NR_telemetry_ECC in Lean 4

`/verif/lean` is a Lake project (Lean 4.33.0; Mathlib modules imported one at a time).
The source in `/repo` was read as text and never executed. Every model definition cites the file and
lines it models.

## Layout

* `Verif/Model/*` - the model, one file per source file (or group). Shallow functions, exceptions as
  values (`Except PyErr α`), state passed and returned explicitly, loops as structural recursion / folds.
* `Verif/Spec/*`  - small independent specifications used in the statements (what an English reader
  needs: "number of differing positions", "last W elements", "X.25 CRC as polynomial register", ...).
* `Verif/Lemmas/*` - helper lemmas.
* `Verif/Props/*` - the property theorems, one or more per property `Cnn`, each followed by an `example`
  exhibiting a concrete non-trivial case meeting the hypotheses. Theorem names start with the id in
  lower case (`c16_...`). `_partial` marks a theorem weaker than the English property; `_false` /
  `_counterexample` marks a proof that the code violates the expectation.

## Modelling conventions

* bytes: `List Byte` with `Byte = BitVec 8`; bit arrays: `List Bool` (MSB first in a byte); Python ints: `Int`
  (or `Nat` where the code can only produce naturals).
* exceptions: `PyErr`, one constructor per exception class that can be observed.
* dicts: association lists in insertion order.
* objects mutated in place: structures; a method returns the new state together with its result.
* floats: two styles. Control-flow claims are proved for an *arbitrary* carrier with arbitrary comparison /
  arithmetic operations (no laws), hence valid for IEEE doubles including NaN and infinities. Claims about
  arithmetic are proved over `ℚ`/`ℝ` (or any linear ordered field): rounding is not modelled there.
* external code (LDPC decoder, numpy/scipy/bitstring/pymavlink, RNG) is a parameter or a modelled contract,
  listed under "Trusted base".

## Plan per property

| id | modelled | proof |
|---|---|---|
| C01,C02 | `hamming_distance` with its operand coercions | induction on bit lists; case analysis on operand kinds |
| C03-C05 | `FrameHeader`, `is_valid_header`, `from_buffer` over the full dialect table | case analysis; table facts by kernel evaluation over the whole table |
| C06,C07 | the scan loop over the table | loop invariant over the list of table entries, for an arbitrary table, then instantiated; counterexample for `max_len` |
| C08,C09 | dialect table (generated from the source text), `__msg_len`, `__msg_fields`, struct formats | kernel evaluation over the whole finite table, lifted |
| C10,C12,C13 | struct pack/unpack, `MAVLink_message.pack`, `MAVLink.decode`, X.25 CRC | round trip by induction over formats; branch analysis |
| C11 | CRC register | the CRC step is a bijection in the register and in the byte; induction |
| C14 | `parse_char`, `parse_buffer` state machine | refinement to a one-pass splitter; induction over chunks |
| C15 | `send` | induction over sends |
| C16-C23 | `segment_buffer` over arbitrary parser; instantiated with `decode` | loop invariant; refinement to a greedy-scan specification |
| C24 | both run-extraction loops | loop invariant against "maximal runs" |
| C25,C26 | `get_msg_fields`, `BufferStructure` | induction over structure / history |
| C27-C30 | `FieldModel`, `BufferModel` | refinement to "last W of history"; cache invariant |
| C31-C36 | `unpack_structure`, `unpack_values`, `num2bits`, `predict`, `find_damaged_fields`, save/load | induction over structure and fields |
| C37-C40 | `Cluster`, `BufferClassifier` with arbitrary metrics | invariants over histories |
| C41-C44 | `OnlineDude`, `DUDE` | refinement to occurrence counts; real arithmetic for BSC |
| C45,C46 | `EMLE` | refinement to last-W; real arithmetic |
| C47-C50 | `prob`, `entropy`, `hellinger`, `typical_set_cardinality` | list induction; Mathlib real analysis |
| C51,C52 | `BMM` E/M steps over reals | Mathlib (Jensen / Gibbs inequality) |
| C53-C57,C64,C65,C68 | decoders with the LDPC decoder as an arbitrary function | invariants over histories of calls |
| C58 | `TurboDecoder` over two arbitrary component decoders | induction over iterations |
| C59-C63,C66,C67 | small utilities | direct |
| C69 | `bitwise_model_mean` | induction over the buffer structure |
| C70 | `BufferClassifier` training merges | loop invariant over the pairs |
| C71 | `EntropyBitwiseWeightedDecoder` | invariants over histories of calls |
| C72 | `ClassifyingDudeDecoder` | branch analysis, invariant over histories |
| C73,C74 | `classifier_analysis`, `forcing_analysis`, the `debug` path of `MavlinkRectifyingDecoder.decode_buffer` | counting arguments; the debug step is compared with the plain one |
| C75 | `check_signature`, the signature branch of `decode`, `sign_packet` | invariant over histories of frames; SHA-256 is an arbitrary function |
| C76 | `__eq__`, `__ne__`, `format_attr`, `to_dict` | refinement to equality of the numbers and texts shown; table facts for distinct names |
| C77 | `msg_creator.py` (row search, five messages, loop over times) | packing round trip of each class, concatenation theorem of the segmentation, induction over the times |
| C78 | cluster splitting, padding and repetition in the scripts | bits to bytes round trip, prefix theorem of the segmentation, for every generator |
| C79 | the distribution of `train_estimator.py` | fold invariant of the wrapped sum |
| C80 | `model_prediction` of the MAVLink decoder against `Spec/Rectify.lean` | prediction (C36), mean (C69) and segmentation (C16) combined per bit; invariant of the runs (C57) |
| C81 | the two analyses of `classifier_analysis.py` against `Spec/Simulation.lean` | sorted lists are equal when they have the same elements; counting |
| C82 | `simulation_step` of `classifier_analysis.py`, model as in C80 | induction over the words with the invariant of the models; the `--learn` branch refuted |
| C83 | `simulation_step` of the simulations with arbitrary stateful decoders (`Model/DecodingRuns.lean`) | induction over the words; counting; the unassigned model refuted |
| C84 | loop and analysis of the recorded experiments with arbitrary stateful decoders | induction over the recording, column by column; success rate refuted by a witness |
| C85 | `decode_buffer` of the combined decoders against `Spec/Unified.lean` | rectification per bit; invariants of the field models (C68, C80) and of the entropy models over returning calls |
| C86 | the estimators of C45, C53, C65, C68 against the likelihood of `Spec/Likelihood.lean` | the Bernoulli likelihood is strictly unimodal (Bernoulli-type inequality via exp); the channel is an affine change of parameter, clipping handles the ends |
| C87 | `minimal_dialect.py` (`Model/Minimal.lean`): message table, `decode`, `parse_buffer` | the codec with the table as a parameter; lockstep simulation of the two parsers |
| C88 | `awgn_llr` and `simulation_step` over the Gaussian channel (`Model/Awgn.lean`) | ratio of Gaussian densities; substitution in the tail integral; linearity of expectation over the product measure; the rates as for C83 |
| C89 | the buffers, the split, the scores and the saved matrix of the clustering analysis (`Model/ClusterRun.lean`) | the two nested loops as one `mapM` over pairs; counting inverted positions; C62 and C67 for the scores; sums of rounding errors for the saved total |
| C90 | `_sample_and_priors` (`Model/EntropyDecoder.lean`) for the weighted and the hard bit-flipping decoder | peaks of scaled words; the model's word from C55; assignment at the low-entropy positions as a fold |
| C91 | the `__init__` of every message class and all `*_encode`/`*_send` methods, as a generated table (`Model/WrapperTable.lean`), and Python's argument binding (`Model/Wrappers.lean`) | the table is checked completely by the kernel; binding by lemmas about lists of names; then C10 and C15 |
| C92 | `bytes.find`, `bytes.split`, slices and `break_down` (`Model/ShipLog.lean`); `int` and `strptime` are parameters | where no occurrence of a marker can start (first letters, borders); induction over the acquisitions |
| C93 | the loop of `train_buffer_model.py` over `segmentBuffer` and `addBuffer` (`Model/Train.lean`); csv files and `save` are outside | the loop is a history of `add_buffer` calls (C30) with arguments that can be added (C16) |
| C94 | the two estimators and the row of results of `MLE_noisy_Bernoulli.py` (`Model/NoisyBernoulli.lean`); draws are arguments | maximum likelihood from C86; first two moments of the number of ones by induction over the draws |
| C95 | `clustering_trials.py`: cutting, filling, damaging, labelling and counting (`Model/Trials.lean`); draws are arguments | lists cut at constants; counting by striding equals counting by class; labels from C38/C39 |
| C96 | `compare_denoisers` and the counts of `dude_example.py` (`Model/Denoisers.lean`); the entropy aided denoiser is a parameter | length and bit preservation of the online denoiser (C61); counting arguments |
| C97 | `unify_results.py` (`Model/Unify.lean`); pickling and figures are outside | two stable sorts give the order by age and name, which is total on distinct names |
| C98 | the formulas of `bsc_capacity.py` and `entropy_with_flips.py` over the reals (`Model/Capacity.lean`) | mutual information expanded to binary entropies; monotonicity and concavity from Mathlib; intermediate value theorem |
| C99 | the globals, `simulation_step` and main part of the averaged simulation, and the success counts of the scripts before it (`Model/Averaged.lean`); decoders and draws are parameters | prefixes of one draw; rates from C83; a map that ignores its argument |
| C100 | both merge distances with weights over the extended reals (`Model/MergeDist.lean`) | counts of C37 turned into shares; Jeffreys divergence of two coins; C70 for the pair merged first |
| C101 | the command text, shell words and argparse (`Model/Command.lean`), with tables of all options and commands generated by `tools/gen_commands.py` (`Model/CommandTables.lean`) | decimal numbers read back; parsing a list of options with one word each; finite facts about the tables by kernel evaluation, everything about values by induction |
| C102 | one word and the loop for a list of decoders with hidden state, both channels, the log lines that divide (`Model/Studies.lean`) | the loop returns exactly if every decoder on its own does, by induction on the words and on the decoders; rates by counting |
| C103 | `Pool.map` for any assignment of points to processes with their own globals; the globals of the bit flipping study (`Model/Pool.lean`) | induction on the points with the globals of all processes; the limit as the greatest element of a set; errors grow with the amplitude of the noise |
| C104 | tuples of results with entries of different kinds, `int(entry == 0)`, the summaries of the three studies with the flipping decoder (`Model/OldStudies.lean`) | the entry used is computed for both kinds of tuples; counts by induction on the words |
| C105 | `decode_buffer` of both combined decoders with `debug` on (`Model/CombinedDebug.lean`) | reading fresh caches changes nothing, and the prediction has refreshed all caches the analyses read; cases of the call; induction over the calls |
| C106 | both XML files and the enum sections of both dialects as generated tables (`Model/XmlTables.lean`), lookup of an enum entry or constant (`Model/Enums.lean`) | the tables are compared by kernel evaluation (checksums with natural numbers, proved equal to the bit version); from the comparison, C09 and C10, the frames for all values; frames are unique |
| C107 | the four batch shell scripts and the run in `runners.txt` as lists of words (`Model/Batch.lean`), read by the `argparse` model of C101 | `seq` by arithmetic; reading the words by induction over the flags; digits and powers of ten for the shape of the sweeps |
| C108 | `setup_logger` on a table of loggers, levels and handlers, and where a record is written (`Model/Logging.lean`); `logging` by its documentation, opening files is a parameter | the handlers of a name by induction over the calls; names of the chain are distinct, so counts add up |
| C109 | constructors and methods of the minimal dialect as a generated table (`Model/MinimalTable.lean`), calls and the signature check (`Model/MinimalMethods.lean`) | rows compared with those of the HC dialect by kernel evaluation, then C91; the signing decoder is the plain decoder of C87 behind a gate, as in C75 |
| C110 | summary rows and the MATLAB metrics (`Model/Metrics.lean`) as tables of reals | rows as counts of cases (induction over words), each matrix entry as a share of the cases |
| C111 | MATLAB studies with draws as arguments (`Model/BayesStudy.lean`) | invariants of the counts over the draws; a history of coprime counts for the window |
| C112 | `data_reader.m` from the loaded records on (`Model/FebReader.lean`), decoder and soft bits arbitrary | correlation at whole words is the number of common ones; maximum over all lags; neighbours by position |
| C113 | bins, rates and histograms of `data_reader.m` over the readings of C112 (`Model/BinStats.lean`) | bin number is the floor of rate over width; totals by induction over the readings; C112 says which receptions have a rate |
| C114 | the text written by `json.dump` and read by `json.load`, the file of `save` at every point of interruption, `load` from a text (`Model/JsonText.lean`) | reader inverts writer by induction on the value; a reader that succeeds on a beginning gives the same on every longer text, so a proper beginning never loads; histories by induction; C34 for the models |
| C115 | the file operations of all scripts that make a results directory as programs with their `try`, run by an interleaving step relation with exceptions and kills (`Model/Results.lean`) | invariants by induction over the events, after a check of every script's shape; witnesses for what fails |
| C116 | the table of field places of the buffer model (C30) against the parser and the names of the numbers of a decoded message (`Spec/Numbers.lean`) | the payload formats of both agree for all messages without arrays; induction over the found structure |
| C117 | mission (C77), word cutting (C78) and decoder (C57) joined | layout of the words by their cluster, C116 for their numbers, induction over the times; a poisoned first word as witness for what fails |
| C118 | the structures of classifier_analysis.py for each number of clusters, sorting, selection and columns of plot_for_thesis.m | cases of C110 as a list of received fields with score and damage; shares are monotone in the threshold; a marker byte is never 0 or 1 |
| C119 | fix_results.py and the end of the AWGN script on dicts of tables; the results directory of C115 | lookups after assignments and pops, loops as pointwise relations; order of the files of a run (C115) |
| C120 | the stream parser of C14 on messages and noise | the next item depends on the pending bytes only (C14) and takes at most 280 of them; induction over noise and frames; a periodic stream of shifted frames as witness |
| C121 | segmentation (C16-C22) of messages of which one is damaged | C21 and C22 for the intact parts, the scan skips bytes that start no frame, C11 for single bits; a frame hidden in two payloads as witness |
| C122 | the hard decisions of the word the MAVLink decoder hands over (C80) when a field has a constant history | C80 gives the word bit by bit; a constant window has deviation zero, so a value is either the constant or forced to it; C33 for the bits of the mean |
| C123 | decode (C12, C13) on version-2 frames | closed form of decode; frames written out as lists of bytes; zero padding commutes with cutting to size |
| C124 | packing with `WIRE_PROTOCOL_VERSION` and `force_mavlink1` as parameters (Verif/Model/Wire2.lean); streams of frames of both versions | shape of what is packed, then C123; the parser takes exactly the announced size of an accepted frame, then induction over the frames as in C120 |
| C125 | parse_char, parse_buffer and send with callbacks and a file that may raise (Verif/Model/Callbacks.lean) | invariant between what was seen, what is pending and the items of the whole stream (drain of C14), preserved by every call however it ends; induction over the messages for the numbers |
| C126 | the whole chain of C117 followed by one more received word (nothing new is modelled) | the histories of C117 put into C122: headers are constant by packing, recorded numbers by hypothesis; the word sent is read back with the same structure |
| C127 | parse_char and parse_buffer with robust_parsing off (Verif/Model/Stream.lean), calls repeated after exceptions | each call handles the next item of the pure view of C14 or nothing; induction over the calls, with the flag for prefix errors as part of the state; loop invariant for parse_buffer |
| C128 | norm.fit on doubles: rounding to nearest as a specification, any order of the additions (Verif/Model/Float64.lean), joined with C126 | partial sums of equal or small integers are doubles, so rounding does nothing; where it does, monotonicity of rounding bounds it; multiples of a power of two keep deviations away from zero; whole tables of the mission's fields by kernel evaluation |
| C129 | p_of_sign_bit, std_significant_bits, bitwise_classify_value (Verif/Model/FieldBits.lean) over any history of a field model | the cache invariant of C28, the distribution function of the normal distribution (Verif/Lemmas/Normal.lean), the logarithm to base 2 |
| C130 | the points `np.linspace(minflip, maxflip, nflips)` and `int(n * p)` with every operation rounded (Verif/Model/FlipCount.lean) | monotonicity and error bounds of rounding to nearest (Verif/Lemmas/Double.lean), the witness by intervals |
| C131 | the entropy decoder as in C53 to C55 and C90 | invariant: the model of a cluster is that of its words whenever both letters occur in them; then signs of sums of logarithms |
| C132 | the mission profile script over arbitrary draws (`Model/Mission.lean`) | lengths and elements of concatenated arrays |
| C133 | the classifier as left by calls that raise (`Model/ClassifierState.lean`) | agreement with the model of the values returned; invariants over runs of calls; simulation of a run by the run without the bad buffers |
| C134 | the variances and sample sizes of the weighted decoder (`Model/WeightedDecoder.lean`) against the variance of a chance given by integrals (`Spec/Posterior.lean`) | Beta integrals by parts and induction; the invariants of C65 and C71 over runs; end to end through the prediction theorem of C71 |
| C135 | the weighted decoder as in C65, C71 and C134 | both estimators brought to one description of a model made of words; then signs of sums of logarithms as in C131 |
| C136 | the combined decoders as in C68 and C85 | the word handed on is that of the field models plus a clipped sum; signs as in C131 |
| C137 | the DUDE decoder as in C72 | the term added is written as log-odds of the received value being wrong; signs; the context counts of special histories are computed |
| C138 | the loop of scripts/buffer_segmentation_example.py over get_msg_fields and add_sample | the dictionary has each key once (setting keeps that), its value is the last one (c25_fields); the field models follow by the invariant of C30 |
| C139 | decoders/turbo.py with decoders/classifiying_decoder.py as first decoder | induction on the rounds gives the runs of both decoders; the learned words of a run of the entropy decoder are those of C53 and C131 |
| C140 | MAVLink.decode and segment_buffer on frames with scattered bit errors | the checksum is linear; the parity of the register follows the number of bits fed, so odd patterns leave a trace; two bits do because no power of x below the length of a frame is 1 modulo the generator polynomial; the generator polynomial itself leaves none |
| C141 | hamming_distance_2_valid_header and FrameHeader.from_buffer on damaged headers | the search result is nearest and first (C06); triangle inequality of the bit distance; the distances of all pairs of types by the kernel |
| C142 | load, save and add_buffer with a model size that may be None | the round trip of C34 with the entry removed; every call raises before a sample is added; the decoder commutes with changing the size |
| C143 | model_prediction of the MAVLink and combined decoders with fields the model lacks | an unmodelled field keeps `None` through the loop of predict; induction over the run, the model unchanged up to caches |
| C144 | fit, predict and score of the mixture model (model of C51) | one M-step gives the moments; the loop commutes with copying samples and with reordering components; induction over the iterations |
| C145 | whole runs of the classifier on buffers of several kinds (models of C37 to C40 and C100) | bounds for each distance from the fixed and varying bits; invariant of the merge loop: every cluster holds buffers of one kind; then induction over the later buffers; with wrong bits, concavity of the logarithm |
| C146 | the denoisers of C41 to C44 on signals with errors (`Spec/Repair.lean`) | equal received contexts come from equal contexts of the signal (triangle inequality); so the counts of C41 and C44 are those of wrong and intact symbols; then C42 |
| C147 | the entropy decoder (C53 to C55, C131) with the classifier (C37 to C40, C133) as its labeler | labels of all words by C145; induction over the words: one learned word per label; hence the window of a cluster holds words of one kind (C53); then C131; with an LDPC decoder that corrects T errors, strong induction over the later words: each is learned as sent |
| C148 | the weighted decoder (C65, C71, C134, C135) with an LDPC decoder that corrects T and detects E errors | induction over the words: every call returns and learns the word sent; the models then consist of words with the constant bits (C65, C71), the second attempt starts from these (C135), so the errors left are at most T |
| C149 | the entropy decoder (C53, C55, C131) with any labels and an LDPC decoder that corrects T errors | induction over the words: what was learned for a label is what was sent with it, so the word handed over decides like the received word plus the push of the words sent (C131; with no or no used model: as received), which has at most T errors |
| C150 | Model/EntropyRun.lean: the two decoders as decoders of the simulation loop (C83), with the binary symmetric channel and inverted positions | C149 gives every estimate: at agreeing bits the push of the words sent has the right sign and, from enough words on, outweighs ratios up to 18; so the errors left are varying bits and inverted bits outside; the rates follow from C83 |
| C151 | Model/MavDecoder.lean, with the words sent of C117 and an LDPC decoder that corrects T errors | induction over the calls: if all words so far arrived, C117 says what was learned, C122 which bits of the next word are handed over right, so at most T are wrong and it arrives too; the learning raises nothing (C30); labels in turn match the order in which the parts of a buffer are sent |
| C152 | Model/MavRun.lean on Model/MavDecoder.lean and Model/DecodingRuns.lean: the set-up of the decoder and the step of the script | induction over the words: C122 for a predefined model says which bits are handed over right, so at most T are wrong; labels in turn as in C151; the rates from C83 |
| C153 | Model/CombinedDecoder.lean, without learning of field models | induction over the calls: the entropy models are those of the words sent so far, so the word handed over is that of C85 for them; counting the bits C136 does not restore |
| C154 | Model/CombinedDecoder.lean, with learning | induction over the calls: structures, field models and entropy models are those of the words sent so far |
| C155 | Model/Studies.lean with Model/CombinedDebug.lean as one of the decoders | C153 for the calls without debug, C105 for debug, C102 for the numbers reported; C143 for the model that is learned |
| C156 | Model/Studies.lean, Model/DecodingRuns.lean and Model/Awgn.lean | each loop split into what one decoder achieves on its own, a function of what it returns and the words sent; the rates and counts are then the same expressions |
| C157 | Model/DudeDecoder.lean | C137 for what is overruled; every position of the history is one of the first k, follows a wrong reception by at most k, is one, or counts for the right value; the doubts grow with the one count and fall with the other |
| C158 | Model/DudeDecoder.lean, Model/Emle.lean, Model/DecodingRuns.lean | C137 for what is overruled; the trust is below one and the added epsilon only lowers the odds, so exp of the magnitude is below the odds of the doubt, which are below f a / (1 - 2 f) with a receptions of the other value |
| C159 | Model/DudeDecoder.lean, Model/DecodingRuns.lean | Induction over the words with the words received before as the history; C158 for a word with a label, C72 for one during training |
| C160 | Model/DudeDecoder.lean | The trust tends to 1 and the doubt to 1, so what the history says against a value tends to log(2^52 + 1), uniformly in the number of wrong receptions; C137 and the counts of C157 |
| C161 | Model/DudeDecoder.lean, Model/DecodingRuns.lean | The outputs of the second decoder of the simulation are the steps of a run; C160 for each word from the M-th on; distance 0 for a word that equals the one sent |

## Trusted base

* Lean 4.33.0's kernel, and Mathlib's definitions (reals, `Real.log`, finite sums, matrices, integrals, the normal distribution).
* Axioms: `propext`, `Classical.choice`, `Quot.sound` and nothing else. `AXIOMS.md` lists, for each property theorem,
  what `#print axioms` prints (regenerate with `tools/axioms.py`). No axioms are added; no `sorry`, `native_decide` or
  `bv_decide`.
* The reading of the Python text: every definition in `Verif/Model` cites the lines it stands for.
  `tools/coverage.py` lists the functions of the repository that no definition cites.
* `Verif/Model/Dialect.lean` is generated from the text of `HC_dialect.py`; what was checked while generating is in
  its header comment. `Verif/Model/MinimalTable.lean` is generated by `tools/gen_minimal.py`. `Verif/Model/XmlTables.lean` is generated by `tools/gen_xml.py` from the XML files and the enum sections of the
  Python files. MAVLink's rules for the wire order and the extra checksum byte (C106) are taken from its documentation.
* External code, taken at its documentation:
  * `struct` (little-endian standard sizes), `bytes.decode("utf-8")`, `json`, list/dict/slice semantics;
  * `pymavlink.generator.mavcrc.x25crc` (modelled from its published source);
  * `bitstring.Bits` (`Bits(bytes=)`, `Bits(auto=)`, `^`, `count`), as the bit list of the object;
  * NumPy indexing, masks, `unique`, `argmin`/`argmax` (first extremum), `packbits`, `sum`, `mean`, `clip`;
  * scipy's `norm` fits and `erf`, `erfc`, and what NumPy computes for a window, as parameters (`StatOps`) or reals (C29);
  * LDPC / Polar component decoders: arbitrary functions of a hidden state and an input;
  * random generators: arbitrary input lists.
* Numbers: 64-bit floats are exact rationals or reals wherever arithmetic matters; NaN is `none`. Rounding
  and signed zeros are modelled for the statistics of fields only (C128), overflow of floats not at all. uint8 wrap-around of `ber` and 8-bit fields is modelled.

## What is modelled, file by file

| file | modelled | not modelled |
|---|---|---|
| utils/bit_operations.py | all | - |
| utils/information_theory.py | all | float rounding |
| utils/performance_analysis.py, utils/random_sources.py | all | the random generator itself |
| utils/custom_exceptions.py | which exception is raised | message texts |
| utils/common_logging.py | all, with the logger tree of Python's `logging` (C108) | the format of a record |
| protocol_meta/msg_header.py | all | `__str__`, `__repr__` |
| protocol_meta/protocol_meta.py | all | - |
| mavlink_utils/HC_dialect.py | all 155 message classes, `pack`, `decode`, stream parser, sender, message comparison and `to_dict`, signing, the per-message `*_encode`/`*_send` methods, enumerations (C106), other wire protocol versions and `force_mavlink1` (C124) | mavnative, `to_json` text |
| mavlink_utils/minimal_dialect.py | the message classes, `pack`, `decode`, stream parser, signing, methods | as for HC_dialect.py |
| mavlink_utils/utils.py | nothing | file generation by pymavlink |
| inference/buffer_segmentation.py | all | `__str__` |
| inference/statistical_models.py | all | rounding in scores and densities (that of the fits is in Float64.lean) |
| inference/clustering.py | all | `__str__` |
| inference/dude.py, inference/entropy_mle.py, inference/bmm.py | all | float rounding |
| decoders/*.py | all decoders; the LDPC / Polar component decoders are parameters | their internals (another package) |
| runs/** | the loops and summaries of the simulations and recorded experiments (decoders as parameters), `encode_data`, `relabel`, `msg_creator.py` from the loaded columns on, cluster splitting, option parsing and saved commands (C101), process pools (C103), batch scripts (C107), the results directory with concurrent and interrupted runs (C115), `fix_results.py` (C119), and the helpers named in the properties | plotting, the formats of pickle, lzma and mat files |
| analysis/*.m | the metrics, the studies of noisy bits, the curves of `plot_for_thesis.m` (C118) | drawing, `flipping_analysis.m`, `classifier_threshold_effect.m` beyond the calls |
| runs/Feb_2022/data/*.m | `data_reader.m` from the loaded records on, the bins of the success-rate plot (C113) | parsing of names and time stamps, drawing |
| data_generation/mission_profile.py | all channels (C132) | the file it opens and leaves empty |
| scripts/** | `train_estimator.py`; `clustering_trials.py`; `compare_denoisers.py`; `dude_example.py`; `unify_results.py`; splitting, padding and repetition of `classifier_analysis.py`, its two analyses and its simulation step | plotting, the encoder, `buffer_segmentation_example.py` beyond its training by fields (C138), `cluster_mnist.py` |

## Where the code does not do what one would expect

Each is a theorem (the negation is proved, on a concrete case, next to what does hold) or is visible in the statement.

* Nearest-header search stops at an exact match even when it is longer than `max_len` (C07).
* A frame whose payload is short is zero-padded and accepted (C13); a recovered short array message makes
  `unpack_values` raise `struct.error` (C32). Messages with array fields are never recovered by segmentation (C23).
* Two recovered messages of one type in a buffer overwrite each other in `get_msg_fields` (C25); fields with equal names
  share one `FieldModel` (C30).
* `num2bits` turns NaN or minus infinity into 0 for unsigned fields (C33).
* `prob` of data with a single letter has one column; callers reading column 1 raise `IndexError` (C47, C53).
* Merging a cluster of constant buffers counts its bits in both columns (C37); `hard_bits` is not the majority (C40);
  `BufferClassifier` with `min_data_size <= 1` or a non-positive cluster count raises (C38).
* `stats` tests a NumPy bool with `is True`, which never holds (C62); `ber` of uint8 words wraps around (C61).
* The Markov source reads the last states of the list; first-order samples all come from row 0 (C63).
* `FieldModel(window_size=0)` never trims (C27); saving turns tuples into lists and sorts keys (C34).
* `OnlineDude` with context length 0 uses 1; `DUDE.denoise_sample` always raises; inputs of length at most 2k are echoed
  (C41-C44).
* EMLE: window 0 is unlimited, a negative one never denoises, and a flip probability above 1/2 inverts hard inputs (C45, C46).
* Entropy decoder: clipping uses the largest value, not the largest magnitude, so an all-negative word collapses; a
  structure consisting of index 0 only is missed (C55).
* DUDE decoder: the caller's array is changed in place; `bit_flip = 1/2` raises (C72).
* MAVLink decoder: a label of -1 updates the last cluster; zero iterations raise; a predefined model lacking a field
  raises (C57). Bitwise decoders learn only when the model covers information bits alone (C64).
* Weighted decoder: precedence slip lets rescaled values exceed the maximum; scheme 2 cannot be reached; scheme 4 raises
  before a good word was learned (C65, C71).
* Combined decoders: the entropy part gets the whole codeword, and raises after the MAVLink part has learned (C68).
* `encode_data` raises for a buffer of exactly k bits (C66); `relabel` is not a bijection in general (C67).
* `classifier_analysis` counts errors, not damaged fields, as negatives (C73); `debug=True` raises for every cluster whose
  structure was unknown before the call (C74).
* Signed frames: a stream's timestamp never moves after its first frame (replay), a forged first frame shuts the stream out,
  and signing the version-1 frames this dialect sends makes them unreadable (C75).
* A message with a NaN is not equal to itself; equal messages may have different frames (C76).
* A sensor whose recording ended before the time contributes its first row again (C77).
* Random padding of nine bytes may itself be a message (C78).
* `train_estimator.py` sums in 16 bits: 65536 or more words give wrong shares (C79).
* `classifier_analysis.py --learn 1` cannot work: the model is a new `BufferModel` that never gets a sample, so the first word raises (`c82_learn_false`, C82). With three clusters the structures are computed from `Bits` instead of bytes, so that no message is ever found and every count of fields is zero (`c118_three_rows_false`, C118). Its `cluster_label` column is the same number for all words; this is not modelled.
* `simulated_data_mavlink_decoding.py --cluster 1 --learn 1` reads a model name that is never assigned (`c83_options_false`, C83).
* Of the four combinations of `--cluster` and `--learn`, that script works with `0 0` only: the default `1 0` never uses the model it loads and reports a recover rate of 0, and `0 1` raises at the first word (`c152_defaults_false`, `c152_learning_false`, C152).
* The success rates of the recorded experiments count the decoder's own success flags, also for unknown words, while the simulations count exactly decoded words (`c84_success_false`, C84). A recording without a known word ends in a ZeroDivisionError after all decoding (`c84_unknown`).
* `classifying_entropy_decoder_over_awgn_channel.py` compares truth values with the number of information bits as if they were positions: each word is reported with all its bits as information errors and no parity errors (`c88_errors_false`, C88). With its default `delta = 2` the entropy decoder is told less than the true error probability (`c88_delta`).
* `clustering_analysis.py` inverts only `int(k * p) // n` bits of a buffer, all in its first `k // n` positions (`c89_rate_false`, C89); it compares the number of the transmission, not of the buffer, with the number of training buffers, so that without shuffling part of the test set has no errors (`c89_clean_test_false`); a length the number of classes does not divide raises (`c89_ragged_false`); and the number of classified buffers is the total of a rounded mean matrix (`c89_saved_false`).
* `_sample_and_priors` with method 3 looks at the entropies and the number of words of cluster 0, whatever cluster the word belongs to: bits of low entropy there but not in the word's own cluster are handed over as zeros (`c90_forced_false`, C90). With the weighted bit-flipping decoder the samples become zeros and ones, of which none is negative (`c90_forced_samples_false`).
* `break_down` splits at markers that may occur in the received bytes, which are then cut (`c92_payload_false`); a log that ends in the middle of an acquisition makes the whole log unreadable (`c92_crash`, C92).
* `train_buffer_model.py` takes the structure from row 0 even if that row is unidentified; then nothing is learned and an empty model is saved (`c93_learns_false`). A row is learned if its first byte is 254, damaged or not (`c93_checked_false`, C93).
* `clustering_trials.py`, option 1: the entries of the results are swapped, entry 0 is about class 1 (`c95_order`); the second word of transmissions shorter than 1224 bits is not filled up (`c95_short_false`, C95).
* `compare_denoisers.py` calls "BER" the share of its input a denoiser has changed (`c96_rate_false`); its fixed source always ends in IndexError (`c96_fixed`); `dude_example.py` gives the entropy aided denoiser the clean sequence (`c96_emle_false`, C96).
* `unify_results.py` sets `minflip` to the rate of the oldest file, smallest or not (`c97_minflip_false`, C97).
* `entropy_with_flips.py` adds the flip probability to the probability of zeros, so that flips seem to lower the entropy; they never do (`c98_measured_false`, C98).
* `..._weighted_model_averaged.py` draws all errors once: `--averaging` repeats one and the same run (`c99_same`), and with `--minflip` above `--maxflip` it reports more errors than it makes (`c99_reversed_false`). The scripts before it count successes at index 5, which is an array for decoders that return six entries (`c99_index_false`, C99).
* An all-zeros and an all-ones buffer are at merge distance 0, because a constant buffer yields a distribution with one column (`c100_constant_false`, C100).
* The commands saved by three scripts are not accepted by argparse (`--entropy_threshold` for `--ent_threshold`, truth values for whole numbers), that of a fourth not without a window (`--window_len None`) (`c101_exit`, C101).
* Six options are missing from the saved commands, always or in some cases, and `--N` is replaced by the number of code words (`c101_forgotten_false`, `c101_words`, C101).
* The pretrained study divides by zero when the plain decoder decodes every word and the pretrained one does not (`c102_pretrained`, C102).
* In the bit flipping study the iteration limit depends on the process that handles the point, and points in forked processes share their noise (`c103_limit_false`, `c103_same_noise`, C103).
* The two older studies with the flipping decoder are lost with a TypeError (`c104_five`, C104).
* A combined decoder that has to learn its structures never decodes a word with `debug` on (`c105_never_learns`, `c105_transparent_false`, C105).
* A receiver with a key that reads from a stream raises AttributeError for signed frames of the minimal dialect (`c109_array_false`, C109).
* `batch_run_mav_decoder.sh` names a script that is not in its directory (`c107_called_false`, C107). `setup_logger` called again for a name doubles every line (`c108_once_false`, C108).
* An interrupted `BufferModel.save` has lost the earlier model (`c114_old_lost`, C114).
* Two runs with the shared `results/log.log` side by side: the second raises after its results are complete, and its records are in the first one's log; directories sorted by name are not sorted by time (`c115_side_by_side_false`, `c115_stamp_order_false`, C115).
* A message with an array in the padding of the first decoded word of a cluster keeps the MAVLink decoder from learning anything for that cluster (`c117_poisoned`, `c117_padding_false`, C117).
* The runs behind the ROC curves of the thesis draw errors of their own, so the curves need not rise (`c118_own_errors_false`, C118).
* A stream parser in step with frames hidden in payloads never finds the real ones (`c120_bound_false`, C120); one inverted bit may make segmentation miss an intact message and report one nobody sent (`c121_intact_false`, `c121_sent_false`, C121).
* A field that changes for the first time in a damaged message is overwritten with its old value before LDPC decoding (`c122_change_false`, C122); signatures are not looked at without a key, and `get_payload` of a version-2 message starts with four header bytes (`c123_signature_false`, `c123_payload_false`, C123).
* A sender switched to version 2 writes the marker of version 1, so nobody understands it; frames with unknown flags are decoded by `decode` but not from a stream (`c124_version2_false`, `c124_flags_false`, C124).
* Items received in a `parse_buffer` call before the callback raises are returned by no call; a `send` that raises may have sent its message (`c125_returned_false`, `c125_unsent_false`, C125).
* Without robust parsing (the default) `parse_buffer` drops the messages it found in a call that then raises, and returns None after a second stray byte although a complete frame is in the buffer; refused frames are not counted as receive errors (`c127_lost_false`, `c127_none_false`, `c127_calls`, C127).
* A 64-bit field that never changes can get a positive deviation, and is then never repaired; a 64-bit field of all ones makes `bitwise_mean` raise; a float field that is always zero accepts minus zero (`c128_constant_false`, `c128_ones_false`, `c128_zero_false`, C128).
* `p_of_sign_bit` raises ZeroDivisionError for a field without samples and is NaN for a field that was always 0; `std_significant_bits` raises OverflowError for a constant field (`c129_sign_always_false`, `c129_significant_always_false`, C129).
* A share that asks for a whole number of errors can lose one to rounding: 404 instead of 405 of 1944 bits at 5/24 (`c130_whole_false`, C130).
* The entropy decoder overwrites the first change of a bit that was constant so far, even in a word received without errors (`c131_change_false`); with a hard-decision LDPC decoder, method 0 and ratios of equal magnitude constant ones received wrong are not repaired (`c131_ties`, C131).
* The mission profile multiplies the depth noise by its deviation twice (`c132_noise_false`), dives half a metre per message instead of 2.5 (`c132_slope_false`) and is still diving when its status says cruise (`c132_dive_false`, C132).
* A constant training buffer, or two of different lengths, make a buffer classifier raise on every later call, and a merge that raises loses the training buffer taken out of the list (`c133_lost_false`, `c133_lost_forever`, C133).
* The DUDE decoder's default flip probability is 0, and with it no received bit is ever overruled: the model only strengthens what was
  received (`c137_default`).
* The field-by-field training of scripts/buffer_segmentation_example.py counts no buffer (the model size stays 0), learns only the last of
  several messages of a kind in a buffer, knows no header numbers, and ends with a ValueError at the first buffer without a message (C138).
  The same script unpacks the three results of `predict` into two names, which raises a ValueError too.
* Inside a turbo decoder the entropy decoder learns a received word once per round, not once: a word that never decodes fills as many
  entries of the window as there are rounds; the word the second decoder finds is never learned; without a classifier each round of the same
  word goes to another cluster; over an LDPC decoder without soft output the call raises a ValueError when the first run fails (C139).
* Four inverted bits in the payload of a message can pass the checksum, in every message with three payload bytes, and two when one of them
  is in the id: decode does not compare the length of a v1 payload with that of its kind (C140).
* For 81 of the 155 message types one wrong bit in the length or id of a header can make the nearest-header search report another type; 34
  types have another valid type one bit away (C141).
* The 2018 model files have no `model_size`. Models loaded from them decode, but every `add_buffer` on them raises a TypeError (C142).
* `set_buffer_structures` on a learning decoder that has learned nothing (the scripts with `--learn 1 --cluster 0`) makes every call raise a
  TypeError; the decoder never recovers. A predefined model without structures (`--learn 0 --cluster 1`) is never used (C143).
* `BMM` never separates data with one feature: `normalize_mu` makes all components start with mean 1 (`c144_one_feature_false`, C144).
* Linear weights, the default of `BufferClassifier`, can merge two different kinds of buffers rather than the two halves of one kind, because larger clusters count as farther apart (`c145_weights_false`, C145).
* With Hamming distance, wrong bits add up in a cluster until its own buffers are closer to another one: every one that was ever received stays (`c145_noise_hamming_false`, C145). Log-likelihood does not have this fault (`c145_noise`).
* DUDE can introduce errors next to errors it corrects, in signals whose surroundings are too similar (`c146_telling_false`, C146).
* The F-beta score of `classifer_metrics.m` weights recall by 1/beta (`c110_fscore_false`, C110).
* `Bayesian_noisy_Bernoulli.m` neither keeps its counts to a window nor resets them between points (`c111_window_false`, `c111_points_false`, C111).
* `data_reader.m` takes the word with most common ones, not the nearest, and ignores copies without errors (`c112_nearest_false`, `c112_clean_false`, C112).

## Testing the theorems

`seeded/LOG.jsonl` records edits of the model (in a scratch copy) that mimic realistic bugs, the claim each breaks and the
theorems that stop compiling. The edited copy is rebuilt with a driver that keeps going after a failed theorem, so that
all theorems resting on a failed one are counted.
