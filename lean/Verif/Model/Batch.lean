import Verif.Model.CommandTables
/-
Model of the shell scripts that start many runs. Simplifications: `seq` is given natural numbers (and prints them without leading
zeros); the other arguments are the texts of whole numbers; the echoed lines are left out. A command is the list of its words.
-/
namespace NR.Batch
open Command

/-- GNU `seq first step last`. A step of zero is an error, with no output. -/
def seq (first step last : Nat) : List Nat :=
  if step = 0 then [] else (List.range ((last + step - first) / step)).map fun k => first + k * step

/-- scripts/batch_runner_classifier.sh:2-14, with `zeros` the text `0.00`; runs/HC_eilat_July_2018/batch_run_mav_decoder.sh:2-15, with
the text `0.0`. -/
def classifierRuns (zeros : String) (clusters : Int) (minThr incThr maxThr : Nat) (multiply : Int) : List (List Word) :=
  (seq minThr incThr maxThr).map fun i =>
    ["python".toList, "classifier_analysis.py".toList, flagWord "threshold", zeros.toList ++ textN i,
      flagWord "n_clusters", textI clusters, flagWord "multiply_data", textI multiply]

/-- runs/clsutering_analysis/batch_runner.sh:2-13. -/
def clusteringRuns (nRuns : Int) (pMin pMax incP : Nat) : List (List Word) :=
  (seq pMin incP pMax).map fun i =>
    ["python".toList, "clustering_analysis.py".toList, flagWord "p", "0.".toList ++ textN i, flagWord "n_runs", textI nRuns]

/-- runs/HC_eilat_July_2018/batch_run_dude_decoder.sh:2-13. -/
def dudeRuns (clusters multiply : Int) : List (List Word) :=
  (seq 1 1 8).map fun c =>
    ["python".toList, "simulated_data_classifying_dude_decoder.py".toList, flagWord "minflip", "0.04".toList,
      flagWord "maxflip", "0.07".toList, flagWord "nflips", "5".toList, flagWord "multiply_data", textI multiply,
      flagWord "classifier_train", "100".toList, flagWord "n_clusters", textI clusters, flagWord "context_length", textN c]

/-- runs/HC_eilat_July_2018/runners.txt:2. -/
def runner : List Word :=
  words ("python simulated_data_entropy_bitwise_decoder_script_mp.py --minflip 0.02 --maxflip 0.07 --nflips 30 --ldpciterations 20 " ++
    "--ent_threshold 0.36  --clipping_factor 2 --min_data 5 --window_len 30").toList

/-- What a command gives a script: the words behind the name of the script are read by `argparse`. -/
def run {F : Type} (fl : Floats F) (s : Script) (cmd : List Word) : Except Exit (Args F) :=
  parse fl s.opts (cmd.drop 2) (defaults fl s.opts)

end NR.Batch
