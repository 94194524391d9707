import Verif.Model.Command
/-
What the run scripts do with the directory `results/`: the timestamp, the directory of a run, its files, its log, and what happens when
several runs work side by side, when a run raises and when its process is killed.

Simplifications: the contents of a result file are who wrote it and whether it was closed; a log is the list of its records; a record or a
file of a process of the pool counts as one of the run; the figures, pickles and mat files are written by one opening and one closing each.
`simulated_data_entropy_bitwise_decoder_weighted_model_averaged.py` makes a directory per repetition: each repetition is a run. Names which
contain an argument are written with its name in braces.
-/
namespace NR.Results
open NR.Command (textN)

/-! ### The timestamp -/

/-- A reading of the clock. -/
structure Clock where
  year : Nat
  month : Nat
  day : Nat
  hour : Nat
  minute : Nat
  second : Nat
  deriving DecidableEq

/-- A number with leading zeros. -/
def padded (width n : Nat) : List Char := List.replicate (width - (textN n).length) '0' ++ textN n

/-- `str(datetime.date.today())`. -/
def dateText (c : Clock) : List Char := padded 4 c.year ++ ('-' :: padded 2 c.month) ++ ('-' :: padded 2 c.day)

/-- The timestamp, e.g. simulated_data_classifying_entropy_decoder.py:234-235: the date, the hour, the minute and the second are taken from
four readings of the clock. -/
def stampText (date hour minute second : Clock) : List Char :=
  dateText date ++ ('_' :: textN hour.hour) ++ ('_' :: textN minute.minute) ++ ('_' :: textN second.second)

/-! ### Programs -/

/-- A file in the directory of a run: with a fixed name, or with the timestamp in front of it. -/
inductive FileName where
  | plain (name : String)
  | stamped (suffix : String)
  deriving DecidableEq

/-- What a script does with the file system. -/
inductive Op where
  /-- `setup_logger(log_file="results/log.log")`. -/
  | openShared
  /-- `setup_logger(log_file=os.path.join(path, "log.log"))`. -/
  | openOwn
  /-- The readings of the clock. -/
  | stamp
  /-- `os.mkdir(path)`. -/
  | mkdir
  /-- A file is opened for writing (and so emptied). -/
  | opened (n : FileName)
  /-- The file has been written and closed. -/
  | closed (n : FileName)
  /-- A pickle of one step beside the directory of the run; the name is the timestamp of the step and its parameter. -/
  | part (suffix : String)
  /-- `logger.info(…)`, `logger.exception(…)`. -/
  | note
  /-- Everything else: computing. -/
  | work
  /-- `shutil.move("results/log.log", os.path.join(path, "log.log"))`. -/
  | move
  deriving DecidableEq

/-- A script: what it does in order, each with whether it is inside the `try`, and what it does in the `except` before raising again. -/
structure Script where
  prog : List (Op × Bool)
  handler : List Op

/-- A file is written. -/
def write (n : FileName) : List Op := [.opened n, .closed n]

/-- Outside the `try`. -/
def plainly (l : List Op) : List (Op × Bool) := l.map fun o => (o, false)

/-- Inside the `try`. -/
def tried (l : List Op) : List (Op × Bool) := l.map fun o => (o, true)

/-- simulated_data_classifying_entropy_decoder.py:106, 226-229, 233-344. -/
def entropyScript : Script where
  prog := plainly ([.openShared, .stamp, .note, .mkdir] ++ write (.plain "cmd.txt") ++ [.note]) ++
    tried ([.work, .part "_simulation_classifying_entropy.pickle", .note] ++ write (.stamped "_simulation_classifying_entropy_{dec_type}_decoder.xz") ++ [.note] ++
      write (.plain "ber_vs_error_p.eps") ++ write (.plain "buffer_success_rate_vs_error_p.eps") ++ [.note] ++
      write (.stamped "_summary_classifying_entropy__{dec_type}_decoder.pickle") ++
      write (.stamped "_summary_classifying_entropy__{dec_type}_decoder.mat") ++ [.note] ++
      write (.stamped "_simulation_classifying_entropy_{dec_type}_decoder.mat") ++ [.note, .move])
  handler := [.note, .move]

/-- simulated_data_pretrained_model.py:80, 183-186, 190-283. -/
def pretrainedScript : Script where
  prog := plainly ([.openShared, .stamp, .note, .mkdir] ++ write (.plain "cmd.txt") ++ [.note]) ++
    tried ([.work, .part "_simulation_pretrained_entropy_model.pickle", .note] ++ write (.stamped "_simulation_pretrained_entropy_model_{dec_type}_decoder.xz") ++ [.note] ++
      write (.plain "ber_vs_error_p.eps") ++ write (.plain "buffer_success_rate_vs_error_p.eps") ++ [.note] ++
      write (.stamped "_summary_pretrained_entropy_model_{dec_type}_decoder.pickle") ++
      write (.stamped "_summary_pretrained_entropy_model_{dec_type}_decoder.mat") ++ [.note] ++
      write (.stamped "_simulation_pretrained_entropy_model_{dec_type}_decoder.mat") ++ [.note, .move])
  handler := [.note, .move]

/-- simluated_data_entropy_bf_decoders.py:72, 231-234, 238-355. -/
def bfScript : Script where
  prog := plainly ([.openShared, .stamp, .note, .mkdir] ++ write (.plain "cmd.txt") ++ [.note]) ++
    tried ([.work, .part "_simulation_classifying_entropy.pickle", .note] ++ write (.stamped "_simulation_BF_comparison_entropy_decoder.xz") ++ [.note] ++
      write (.plain "ber_vs_error_p.eps") ++ write (.plain "buffer_success_rate_vs_error_p.eps") ++ [.note] ++
      write (.stamped "_summary_BF_comparison_entropy_decoder.pickle") ++ write (.stamped "_summary_BF_comparison_entropy_decoder.mat") ++ [.note] ++
      write (.stamped "_simulation_BF_comparison_entropy_decoder.mat") ++ [.note, .move])
  handler := [.note, .move]

/-- simulate_gallager_bf.py:70, 159-162, 166-261. -/
def gallagerScript : Script where
  prog := plainly ([.openShared, .stamp, .note, .mkdir] ++ write (.plain "cmd.txt") ++ [.note]) ++
    tried ([.work, .part "_simulation_gallager_entropy.pickle", .note] ++ write (.stamped "_simulation_gallger_entropy_decoder.xz") ++ [.note] ++
      write (.plain "ber_vs_error_p.eps") ++ write (.plain "success_rate_vs_error_p.eps") ++ [.note] ++
      write (.stamped "_summary_gal_entropy_decoder.pickle") ++ write (.stamped "_summary_gal_entropy_decoder.mat") ++ [.note] ++
      write (.stamped "_simulation_gal_entropy_decoder.mat") ++ [.note, .move])
  handler := [.note, .move]

/-- classifying_entropy_decoder_over_awgn_channel.py:114, 209-212, 217-319. -/
def awgnScript : Script where
  prog := plainly ([.openShared, .stamp, .note, .mkdir] ++ write (.plain "cmd.txt") ++ [.note]) ++
    tried ([.work, .part "_simulation_awgn_classifying_entropy.pickle", .note] ++ write (.stamped "_simulation_AWGN_classifying_entropy_{dec_type}_decoder.xz") ++ [.note] ++
      write (.plain "ber_vs_snr.eps") ++ write (.plain "buffer_success_rate_vs_snr.eps") ++ [.note] ++
      write (.stamped "_summary_classifying_entropy__{dec_type}_decoder.pickle") ++
      write (.stamped "_summary_AWGN_classifying_entropy__{dec_type}_decoder.mat") ++ [.note] ++
      write (.stamped "_simulation_AWGN_classifying_entropy_{dec_type}_decoder.mat") ++ [.note, .move])
  handler := [.note, .move]

/-- simulated_data_classifying_dude_decoder.py:100, 177-180, 184-281. The names of the files carry a second timestamp (line 221). -/
def dudeScript : Script where
  prog := plainly ([.openShared, .stamp, .note, .mkdir] ++ write (.plain "cmd.txt") ++ [.note]) ++
    tried ([.work, .part "_simulation_classifying_dude.pickle", .note] ++ write (.stamped "_simulation_classifying_DUDE_{dec_type}_decoder.xz") ++ [.note] ++
      write (.plain "ber_vs_error_p.eps") ++ write (.plain "buffer_success_rate_vs_error_p.eps") ++ [.note] ++
      write (.stamped "_summary_classifying_dude_{dec_type}_decoder.pickle") ++ write (.stamped "_summary_classifying_dude_{dec_type}_decoder.mat") ++ [.note] ++
      write (.stamped "_simulation_classifying_dude_{dec_type}_decoder.mat") ++ [.note, .move])
  handler := [.note, .move]

/-- simulated_data_mavlink_decoding.py:125, 212-215, 219-319. The steps run before the `try`. -/
def mavlinkScript : Script where
  prog := plainly ([.openShared, .stamp, .mkdir, .note] ++ write (.plain "cmd.txt") ++
      [.note, .work, .part "_simulation_classifying_rect.pickle", .note]) ++
    tried (write (.stamped "_simulation_rectifying_{dec_type}_decoder_WiFi.xz") ++ [.note] ++
      write (.plain "ber_vs_error_p.eps") ++ write (.plain "buffer_success_rate_vs_error_p.eps") ++ [.note] ++
      write (.stamped "_summary_rectifying_{dec_type}_decoder_WiFi.pickle") ++ write (.stamped "_summary_rectifying_{dec_type}_decoder_WiFi.mat") ++ [.note] ++
      write (.stamped "_simulation_rectifying_{dec_type}_decoder_WiFi.mat") ++ [.note, .move])
  handler := [.note, .move]

/-- simulated_data_combined_decoder.py:128, 245-248, 252-363. The steps run before the `try`. -/
def combinedScript : Script where
  prog := plainly ([.openShared, .stamp, .note, .mkdir] ++ write (.plain "cmd.txt") ++ [.note, .work, .part "_simulation_nr.pickle", .note]) ++
    tried (write (.plain "ber_vs_error_p.eps") ++ write (.plain "buffer_success_rate_vs_error_p.eps") ++ [.note] ++
      write (.stamped "_summary_nr_{dec_type}_decoder_WiFi.pickle") ++ write (.stamped "_summary_nr_{dec_type}_decoder_WiFi.mat") ++ [.note, .move])
  handler := [.note, .move]

/-- Feb_2022/simulation_rafael_code.py:62, 153-156, 161-240. The steps run before the `try`; the empty subdirectory (line 193) is computing. -/
def rafaelScript : Script where
  prog := plainly ([.openShared, .stamp, .mkdir, .note] ++ write (.plain "cmd.txt") ++
      [.note, .work, .part "_simulation_classifying_entropy.pickle", .note]) ++
    tried ([.work] ++ write (.stamped "_simulation_rafael_code.xz") ++ [.note] ++
      write (.plain "ber_vs_error_p.eps") ++ write (.plain "buffer_success_rate_vs_error_p.eps") ++ [.note] ++
      write (.stamped "_summary_simulation_rafael_code.pickle") ++ write (.stamped "_summary_simulation_rafael_code.mat") ++ [.note] ++
      write (.stamped "_simulation_rafael_code.mat") ++ [.note, .move])
  handler := [.note, .move]

/-- scripts/classifier_analysis.py:104, 346-435. The steps run before the `try`. -/
def analysisScript : Script where
  prog := plainly ([.openShared, .stamp, .mkdir, .note] ++ write (.plain "cmd.txt") ++ [.note, .work, .note]) ++
    tried (write (.stamped "_summary_classifier_analysis_2018.mat") ++ [.note] ++ write (.stamped "_classifier_analysis_2018.mat") ++ [.note, .move])
  handler := [.note, .move]

/-- clsutering_analysis/clustering_analysis.py:32, 105-156: also the directory is made inside the `try`. -/
def clusteringScript : Script where
  prog := plainly [.openShared] ++
    tried ([.stamp, .mkdir, .note] ++ write (.plain "cmd.txt") ++ [.note, .work, .note] ++ write (.stamped "_clustering_results.mat") ++ [.note, .move])
  handler := [.note, .move]

/-- The recorded experiments, Feb_2022/experimental_data_run.py:53-175, experimental_mavlink_based.py:57-189 and their copies in Feb_2023: the log
is opened in the directory of the run. -/
def recordedScript : Script where
  prog := plainly ([.stamp, .mkdir, .openOwn, .note] ++ write (.plain "cmd.txt") ++ [.note, .work, .note] ++
    write (.stamped "_experimental_data_analysis.xz") ++ write (.stamped "_experimental_data_analysis.mat") ++ write (.plain "summary.txt"))
  handler := []

/-- Feb_2022/experimental_data_unified_decoder.py:67-202 and its copy in Feb_2023. -/
def unifiedScript : Script where
  prog := plainly ([.stamp, .mkdir, .openOwn, .note] ++ write (.plain "cmd.txt") ++ [.note]) ++
    tried ([.work, .note] ++ write (.stamped "_experimental_data_analysis_unified_nr.xz") ++
      write (.stamped "_experimental_data_analysis_unified_nr.mat") ++ write (.plain "summary.txt"))
  handler := [.note]

/-- simulated_data_entropy_bitwise_decoder_script.py:160-196 and simulated_data_entropy_bitwise_decoder_script_mp.py:163-203: no log. -/
def bitwiseScript : Script where
  prog := plainly ([.work, .stamp, .mkdir] ++ write (.plain "cmd.txt") ++ write (.stamped "_simulation_entropy_vs_pure_LDPC.pickle") ++
    write (.plain "ber_vs_error_p.eps") ++ write (.plain "buffer_success_rate_vs_error_p.eps") ++ write (.stamped "_summary_entropy_vs_pure_LDPC.pickle"))
  handler := []

/-- simulated_data_entropy_bitwise_decoder_predefined_model.py:158-161, 165-205. -/
def predefinedScript : Script where
  prog := plainly ([.work, .part "_simulation_entropy_predefined.pickle", .stamp, .mkdir] ++ write (.plain "cmd.txt") ++
    write (.stamped "_simulation_entropy_vs_pure_LDPC_predefined_model.pickle") ++ write (.plain "ber_vs_error_p.eps") ++
    write (.plain "buffer_success_rate_vs_error_p.eps") ++ write (.stamped "_summary_entropy_vs_pure_LDPC_predefined_model.pickle"))
  handler := []

/-- simulated_data_entropy_bitwise_decoder_weighted_model.py:198-201, 205-260. -/
def weightedScript : Script where
  prog := plainly ([.work, .part "_simulation_entropy_weighted.pickle", .stamp, .mkdir] ++ write (.plain "cmd.txt") ++
    write (.stamped "_simulation_entropy_vs_pure_LDPC_weighted_model_{dec_type}_decoder.xz") ++ write (.plain "ber_vs_error_p.eps") ++
    write (.plain "buffer_success_rate_vs_error_p.eps") ++ write (.stamped "_summary_entropy_vs_pure_LDPC_weighted_model_{dec_type}_decoder.pickle") ++
    write (.stamped "_summary_entropy_vs_pure_LDPC_weighted_model_{dec_type}_decoder.mat") ++
    write (.stamped "_simulation_entropy_vs_pure_LDPC_weighted_model_{dec_type}_decoder.mat"))
  handler := []

/-- One repetition in simulated_data_entropy_bitwise_decoder_weighted_model_averaged.py:179-182, 188-227 (`iteration_{run_idx}_time_` stands in
front of the timestamp). -/
def averagedScript : Script where
  prog := plainly ([.work, .part "_simulation_entropy_weighted.pickle", .stamp, .mkdir] ++ write (.plain "cmd.txt") ++
    write (.stamped "_simulation_entropy_vs_pure_LDPC_weighted_model.pickle") ++ write (.plain "ber_vs_error_p.eps") ++
    write (.plain "buffer_success_rate_vs_error_p.eps") ++ write (.stamped "_summary_entropy_vs_pure_LDPC_weighted_model.pickle"))
  handler := []

/-- scripts/unify_results.py:13-58. -/
def unifyScript : Script where
  prog := plainly ([.stamp, .mkdir, .work] ++ write (.stamped "{results_file_name}") ++ write (.plain "ber_vs_error_p.eps") ++
    write (.plain "buffer_success_rate_vs_error_p.eps") ++ write (.stamped "_summary{results_file_name}"))
  handler := []

/-- The scripts that make their directory outside the `try`. -/
def scripts : List Script := [entropyScript, pretrainedScript, bfScript, gallagerScript, awgnScript, dudeScript, mavlinkScript, combinedScript, rafaelScript,
  analysisScript, recordedScript, unifiedScript, bitwiseScript, predefinedScript, weightedScript, averagedScript, unifyScript]

/-! ### Execution -/

/-- The file system below `results/`: the directories, the files in them (who wrote a file last, and whether it was closed), the pickles
of the steps (who wrote last), the log files by number with their records (of which run, its how many-th), the number of the file called
`results/log.log` and of the file called `log.log` in each directory. -/
structure Disk where
  dir : String → Bool
  file : String → FileName → Option (Nat × Bool)
  part : String → Option Nat
  log : Nat → List (Nat × Nat)
  next : Nat
  shared : Option Nat
  own : String → Option Nat

/-- A run: what is left to do, its timestamp, whether its directory was made by it, its open log, how many records it has written, whether
it has moved the log, whether an exception is on its way, and whether the process was killed. -/
structure Run where
  todo : List (Op × Bool)
  name : String
  made : Bool
  handle : Option Nat
  notes : Nat
  moved : Bool
  failing : Bool
  killed : Bool

/-- A function changed in one place. -/
def upd {α β : Type} [DecidableEq α] (f : α → β) (a : α) (b : β) : α → β := fun x => if x = a then b else f x

/-- A new, empty log file. -/
def Disk.newLog (d : Disk) : Disk := { d with
  log := upd d.log d.next []
  next := d.next + 1 }

/-- One operation of run `i`; `t` is the text of the timestamp read, if one is read. `none`: it raises. -/
def exec (i : Nat) (d : Disk) (r : Run) (t : String) : Op → Option (Disk × Run)
  | .openShared => match d.shared with
    | some k => some (d, { r with handle := some k })
    | none => some ({ d.newLog with shared := some d.next }, { r with handle := some d.next })
  | .openOwn => if d.dir r.name then
      match d.own r.name with
      | some k => some (d, { r with handle := some k })
      | none => some ({ d.newLog with own := upd d.own r.name (some d.next) }, { r with handle := some d.next })
    else none
  | .stamp => some (d, { r with name := t })
  | .mkdir => if d.dir r.name then none else some ({ d with dir := upd d.dir r.name true }, { r with made := true })
  | .opened n => if d.dir r.name then some ({ d with file := upd d.file r.name (upd (d.file r.name) n (some (i, false))) }, r) else none
  | .closed n => some ({ d with file := upd d.file r.name (upd (d.file r.name) n (some (i, true))) }, r)
  | .part s => some ({ d with part := upd d.part (t ++ s) (some i) }, r)
  | .note => match r.handle with
    | some k => some ({ d with log := upd d.log k (d.log k ++ [(i, r.notes)]) }, { r with notes := r.notes + 1 })
    | none => some (d, r)
  | .work => some (d, r)
  | .move => match d.shared with
    | some k => if d.dir r.name then
        some ({ d with
          shared := none
          own := upd d.own r.name (some k) }, { r with moved := true })
      else none
    | none => none

/-- An exception: inside the `try` the handler runs and raises again, otherwise the run ends. -/
def fail (h : List Op) (inTry : Bool) (r : Run) : Run := { r with
  todo := if inTry then plainly h else []
  failing := true }

/-- What may happen to a run next: it goes on (with the text of the timestamp, should it read the clock), an exception comes up, or its process is killed. -/
inductive Act where
  | go (t : String)
  | raise
  | kill

structure World where
  disk : Disk
  runs : Nat → Run

/-- One event of one run. -/
def step (S : Nat → Script) (w : World) (e : Nat × Act) : World :=
  match (w.runs e.1).todo with
  | [] => w
  | (op, inTry) :: rest => match e.2 with
    | .kill => { w with runs := upd w.runs e.1 { w.runs e.1 with
        todo := []
        killed := true } }
    | .raise => { w with runs := upd w.runs e.1 (fail (S e.1).handler inTry (w.runs e.1)) }
    | .go t => match exec e.1 w.disk (w.runs e.1) t op with
      | none => { w with runs := upd w.runs e.1 (fail (S e.1).handler inTry (w.runs e.1)) }
      | some (d, r) => { disk := d, runs := upd w.runs e.1 { r with todo := rest } }

/-- The beginning of a run. -/
def Script.atStart (s : Script) : Run := ⟨s.prog, "", false, none, 0, false, false, false⟩

/-- Nothing in `results/`, and every run at its beginning. -/
def start (S : Nat → Script) : World where
  disk := ⟨fun _ => false, fun _ _ => none, fun _ => none, fun _ => [], 0, none, fun _ => none⟩
  runs := fun i => (S i).atStart

/-- After a sequence of events. -/
def after (S : Nat → Script) (es : List (Nat × Act)) : World := es.foldl (step S) (start S)

/-- The run has come to its end without an exception. -/
def Run.returned (r : Run) : Prop := r.todo = [] ∧ r.failing = false ∧ r.killed = false

/-- The run has ended with an exception. -/
def Run.raised (r : Run) : Prop := r.todo = [] ∧ r.failing = true ∧ r.killed = false

/-- The files a script writes into its directory, in order. -/
def fileNames (p : List (Op × Bool)) : List FileName := p.filterMap fun o => match o.1 with
  | .opened n => some n
  | _ => none

end NR.Results
