import Verif.Model.Command
/-
Generated by tools/gen_commands.py from the run scripts. Do not edit.
-/
namespace NR.Command

/-- runs/Feb_2022/experimental_data_run.py:18-27 (options), 75-81 (command). -/
def s00 : Script where
  file := "runs/Feb_2022/experimental_data_run.py"
  opts := [⟨"ldpciterations", .int, .int 130⟩,
    ⟨"ent_threshold", .float, .float (9 / 25)⟩,
    ⟨"window_len", .int, .int 50⟩,
    ⟨"clipping_factor", .int, .int 2⟩,
    ⟨"conf_center", .int, .int 40⟩,
    ⟨"conf_slope", .float, .float (7 / 20)⟩,
    ⟨"dec_type", .str, .str "BP"⟩,
    ⟨"model_length", .str, .str "all"⟩,
    ⟨"experiment_date", .str, .str "14"⟩,
    ⟨"raw_ber", .float, .int 0⟩]
  pieces := [⟨.always, "ldpciterations", .arg "ldpciterations"⟩,
    ⟨.always, "ent_threshold", .arg "ent_threshold"⟩,
    ⟨.always, "clipping_factor", .arg "clipping_factor"⟩,
    ⟨.always, "conf_center", .arg "conf_center"⟩,
    ⟨.always, "conf_slope", .arg "conf_slope"⟩,
    ⟨.always, "dec_type", .arg "dec_type"⟩,
    ⟨.always, "model_length", .arg "model_length"⟩,
    ⟨.always, "experiment_date", .arg "experiment_date"⟩,
    ⟨.always, "raw_ber", .arg "raw_ber"⟩,
    ⟨.win, "window_len", .window⟩,
    ⟨.noWin, "window_len", .zero⟩]

/-- runs/Feb_2022/experimental_data_unified_decoder.py:19-37 (options), 93-102 (command). -/
def s01 : Script where
  file := "runs/Feb_2022/experimental_data_unified_decoder.py"
  opts := [⟨"ldpciterations", .int, .int 130⟩,
    ⟨"dec_type", .str, .str "BP"⟩,
    ⟨"cluster", .int, .int 1⟩,
    ⟨"valid_factor", .float, .float (2 / 1)⟩,
    ⟨"invalid_factor", .float, .float (7 / 10)⟩,
    ⟨"valid_threshold", .float, .float (3 / 100)⟩,
    ⟨"invalid_threshold", .float, .float (2 / 25)⟩,
    ⟨"window_len", .int, .int 50⟩,
    ⟨"learn", .int, .int 0⟩,
    ⟨"conf_center", .int, .int 40⟩,
    ⟨"conf_slope", .float, .float (7 / 20)⟩,
    ⟨"ent_threshold", .float, .float (9 / 25)⟩,
    ⟨"clipping_factor", .int, .int 2⟩,
    ⟨"flip", .int, .int 0⟩,
    ⟨"experiment_date", .str, .str "14"⟩,
    ⟨"raw_ber", .float, .int 0⟩]
  pieces := [⟨.always, "ldpciterations", .arg "ldpciterations"⟩,
    ⟨.always, "learn", .arg "learn"⟩,
    ⟨.always, "valid_factor", .arg "valid_factor"⟩,
    ⟨.always, "invalid_factor", .arg "invalid_factor"⟩,
    ⟨.always, "valid_threshold", .arg "valid_threshold"⟩,
    ⟨.always, "invalid_threshold", .arg "invalid_threshold"⟩,
    ⟨.always, "conf_center", .arg "conf_center"⟩,
    ⟨.always, "conf_slope", .arg "conf_slope"⟩,
    ⟨.always, "dec_type", .arg "dec_type"⟩,
    ⟨.always, "experiment_date", .arg "experiment_date"⟩,
    ⟨.always, "ent_threshold", .arg "ent_threshold"⟩,
    ⟨.always, "clipping_factor", .arg "clipping_factor"⟩,
    ⟨.always, "flip", .arg "flip"⟩,
    ⟨.always, "raw_ber", .arg "raw_ber"⟩,
    ⟨.win, "window_len", .window⟩,
    ⟨.noWin, "window_len", .zero⟩]

/-- runs/Feb_2022/experimental_mavlink_based.py:19-32 (options), 80-88 (command). -/
def s02 : Script where
  file := "runs/Feb_2022/experimental_mavlink_based.py"
  opts := [⟨"ldpciterations", .int, .int 130⟩,
    ⟨"segiterations", .int, .int 1⟩,
    ⟨"dec_type", .str, .str "BP"⟩,
    ⟨"valid_factor", .float, .float (2 / 1)⟩,
    ⟨"invalid_factor", .float, .float (7 / 10)⟩,
    ⟨"valid_threshold", .float, .float (3 / 100)⟩,
    ⟨"invalid_threshold", .float, .float (2 / 25)⟩,
    ⟨"window_len", .int, .int 50⟩,
    ⟨"learn", .int, .int 0⟩,
    ⟨"conf_center", .int, .int 40⟩,
    ⟨"conf_slope", .float, .float (7 / 20)⟩,
    ⟨"experiment_date", .str, .str "14"⟩]
  pieces := [⟨.always, "ldpciterations", .arg "ldpciterations"⟩,
    ⟨.always, "learn", .arg "learn"⟩,
    ⟨.always, "segiterations", .arg "segiterations"⟩,
    ⟨.always, "valid_factor", .arg "valid_factor"⟩,
    ⟨.always, "invalid_factor", .arg "invalid_factor"⟩,
    ⟨.always, "valid_threshold", .arg "valid_threshold"⟩,
    ⟨.always, "invalid_threshold", .arg "invalid_threshold"⟩,
    ⟨.always, "window_len", .window⟩,
    ⟨.always, "conf_center", .arg "conf_center"⟩,
    ⟨.always, "conf_slope", .arg "conf_slope"⟩,
    ⟨.always, "dec_type", .arg "dec_type"⟩,
    ⟨.always, "experiment_date", .arg "experiment_date"⟩,
    ⟨.win, "window_len", .window⟩,
    ⟨.noWin, "window_len", .zero⟩]

/-- runs/Feb_2022/simulation_rafael_code.py:21-34 (options), 64-76 (command). -/
def s03 : Script where
  file := "runs/Feb_2022/simulation_rafael_code.py"
  opts := [⟨"N", .int, .int 0⟩,
    ⟨"minflip", .float, .float (1 / 50)⟩,
    ⟨"maxflip", .float, .float (2 / 5)⟩,
    ⟨"nflips", .int, .int 20⟩,
    ⟨"ldpciterations", .int, .int 60⟩,
    ⟨"ent_threshold", .float, .float (9 / 25)⟩,
    ⟨"window_len", .int, .int 50⟩,
    ⟨"clipping_factor", .int, .int 2⟩,
    ⟨"multiply_data", .int, .int 0⟩,
    ⟨"processes", .int, .int 0⟩,
    ⟨"conf_center", .int, .int 40⟩,
    ⟨"conf_slope", .float, .float (7 / 20)⟩,
    ⟨"dec_type", .str, .str "BP"⟩,
    ⟨"model_length", .str, .str "all"⟩]
  pieces := [⟨.always, "minflip", .arg "minflip"⟩,
    ⟨.always, "maxflip", .arg "maxflip"⟩,
    ⟨.always, "nflips", .arg "nflips"⟩,
    ⟨.always, "ldpciterations", .arg "ldpciterations"⟩,
    ⟨.always, "ent_threshold", .arg "ent_threshold"⟩,
    ⟨.always, "clipping_factor", .arg "clipping_factor"⟩,
    ⟨.always, "conf_center", .arg "conf_center"⟩,
    ⟨.always, "conf_slope", .arg "conf_slope"⟩,
    ⟨.always, "multiply_data", .arg "multiply_data"⟩,
    ⟨.always, "dec_type", .arg "dec_type"⟩,
    ⟨.always, "model_length", .arg "model_length"⟩,
    ⟨.win, "window_len", .window⟩,
    ⟨.noWin, "window_len", .zero⟩,
    ⟨.nPos, "N", .count⟩,
    ⟨.procs, "processes", .procs⟩]

/-- runs/Feb_2023/experimental_data_run_feb_23.py:17-28 (options), 102-108 (command). -/
def s04 : Script where
  file := "runs/Feb_2023/experimental_data_run_feb_23.py"
  opts := [⟨"ldpciterations", .int, .int 60⟩,
    ⟨"ent_threshold", .float, .float (9 / 25)⟩,
    ⟨"window_len", .int, .int 50⟩,
    ⟨"clipping_factor", .int, .int 2⟩,
    ⟨"conf_center", .int, .int 40⟩,
    ⟨"conf_slope", .float, .float (7 / 20)⟩,
    ⟨"dec_type", .str, .str "BP"⟩,
    ⟨"model_length", .str, .str "all"⟩,
    ⟨"experiment_date", .str, .str "17"⟩,
    ⟨"raw_ber", .float, .int 0⟩,
    ⟨"msg_type", .int, .int 0⟩,
    ⟨"separate_models", .int, .int 0⟩]
  pieces := [⟨.always, "ldpciterations", .arg "ldpciterations"⟩,
    ⟨.always, "ent_threshold", .arg "ent_threshold"⟩,
    ⟨.always, "clipping_factor", .arg "clipping_factor"⟩,
    ⟨.always, "conf_center", .arg "conf_center"⟩,
    ⟨.always, "conf_slope", .arg "conf_slope"⟩,
    ⟨.always, "dec_type", .arg "dec_type"⟩,
    ⟨.always, "model_length", .arg "model_length"⟩,
    ⟨.always, "experiment_date", .arg "experiment_date"⟩,
    ⟨.always, "raw_ber", .arg "raw_ber"⟩,
    ⟨.always, "msg_type", .arg "msg_type"⟩,
    ⟨.win, "window_len", .window⟩,
    ⟨.noWin, "window_len", .zero⟩]

/-- runs/Feb_2023/experimental_data_unified_decoder.py:19-39 (options), 123-133 (command). -/
def s05 : Script where
  file := "runs/Feb_2023/experimental_data_unified_decoder.py"
  opts := [⟨"ldpciterations", .int, .int 130⟩,
    ⟨"dec_type", .str, .str "BP"⟩,
    ⟨"cluster", .int, .int 1⟩,
    ⟨"valid_factor", .float, .float (2 / 1)⟩,
    ⟨"invalid_factor", .float, .float (7 / 10)⟩,
    ⟨"valid_threshold", .float, .float (3 / 100)⟩,
    ⟨"invalid_threshold", .float, .float (2 / 25)⟩,
    ⟨"window_len", .int, .int 50⟩,
    ⟨"learn", .int, .int 0⟩,
    ⟨"conf_center", .int, .int 40⟩,
    ⟨"conf_slope", .float, .float (7 / 20)⟩,
    ⟨"ent_threshold", .float, .float (9 / 25)⟩,
    ⟨"clipping_factor", .int, .int 2⟩,
    ⟨"flip", .int, .int 0⟩,
    ⟨"experiment_date", .str, .str "14"⟩,
    ⟨"raw_ber", .float, .int 0⟩,
    ⟨"msg_type", .int, .int 0⟩,
    ⟨"separate_models", .int, .int 0⟩]
  pieces := [⟨.always, "ldpciterations", .arg "ldpciterations"⟩,
    ⟨.always, "learn", .arg "learn"⟩,
    ⟨.always, "valid_factor", .arg "valid_factor"⟩,
    ⟨.always, "invalid_factor", .arg "invalid_factor"⟩,
    ⟨.always, "valid_threshold", .arg "valid_threshold"⟩,
    ⟨.always, "invalid_threshold", .arg "invalid_threshold"⟩,
    ⟨.always, "conf_center", .arg "conf_center"⟩,
    ⟨.always, "conf_slope", .arg "conf_slope"⟩,
    ⟨.always, "dec_type", .arg "dec_type"⟩,
    ⟨.always, "experiment_date", .arg "experiment_date"⟩,
    ⟨.always, "ent_threshold", .arg "ent_threshold"⟩,
    ⟨.always, "clipping_factor", .arg "clipping_factor"⟩,
    ⟨.always, "flip", .arg "flip"⟩,
    ⟨.always, "raw_ber", .arg "raw_ber"⟩,
    ⟨.always, "msg_type", .arg "msg_type"⟩,
    ⟨.always, "separate_models", .arg "separate_models"⟩,
    ⟨.win, "window_len", .window⟩,
    ⟨.noWin, "window_len", .zero⟩]

/-- runs/Feb_2023/experimental_mavlink_based.py:19-34 (options), 109-117 (command). -/
def s06 : Script where
  file := "runs/Feb_2023/experimental_mavlink_based.py"
  opts := [⟨"ldpciterations", .int, .int 130⟩,
    ⟨"segiterations", .int, .int 1⟩,
    ⟨"dec_type", .str, .str "BP"⟩,
    ⟨"valid_factor", .float, .float (2 / 1)⟩,
    ⟨"invalid_factor", .float, .float (7 / 10)⟩,
    ⟨"valid_threshold", .float, .float (3 / 100)⟩,
    ⟨"invalid_threshold", .float, .float (2 / 25)⟩,
    ⟨"window_len", .int, .int 0⟩,
    ⟨"learn", .int, .int 0⟩,
    ⟨"conf_center", .int, .int 40⟩,
    ⟨"conf_slope", .float, .float (7 / 20)⟩,
    ⟨"experiment_date", .str, .str "all"⟩,
    ⟨"msg_type", .int, .int 0⟩,
    ⟨"separate_models", .int, .int 0⟩]
  pieces := [⟨.always, "ldpciterations", .arg "ldpciterations"⟩,
    ⟨.always, "learn", .arg "learn"⟩,
    ⟨.always, "segiterations", .arg "segiterations"⟩,
    ⟨.always, "valid_factor", .arg "valid_factor"⟩,
    ⟨.always, "invalid_factor", .arg "invalid_factor"⟩,
    ⟨.always, "valid_threshold", .arg "valid_threshold"⟩,
    ⟨.always, "invalid_threshold", .arg "invalid_threshold"⟩,
    ⟨.always, "conf_center", .arg "conf_center"⟩,
    ⟨.always, "conf_slope", .arg "conf_slope"⟩,
    ⟨.always, "dec_type", .arg "dec_type"⟩,
    ⟨.always, "experiment_date", .arg "experiment_date"⟩,
    ⟨.always, "msg_type", .arg "msg_type"⟩,
    ⟨.win, "window_len", .window⟩,
    ⟨.noWin, "window_len", .zero⟩]

/-- runs/HC_eilat_July_2018/classifying_entropy_decoder_over_awgn_channel.py:36-55 (options), 245-258 (command). -/
def s07 : Script where
  file := "runs/HC_eilat_July_2018/classifying_entropy_decoder_over_awgn_channel.py"
  opts := [⟨"N", .int, .int 0⟩,
    ⟨"min_ebno", .float, .int (-2)⟩,
    ⟨"max_ebno", .float, .int 3⟩,
    ⟨"snr_scale", .str, .str "db"⟩,
    ⟨"delta", .float, .float (2 / 1)⟩,
    ⟨"n_points", .int, .int 20⟩,
    ⟨"ldpciterations", .int, .int 20⟩,
    ⟨"ent_threshold", .float, .float (9 / 25)⟩,
    ⟨"window_len", .int, .int 50⟩,
    ⟨"clipping_factor", .int, .int 2⟩,
    ⟨"multiply_data", .int, .int 0⟩,
    ⟨"processes", .int, .int 0⟩,
    ⟨"conf_center", .int, .int 40⟩,
    ⟨"conf_slope", .float, .float (7 / 20)⟩,
    ⟨"dec_type", .str, .str "BP"⟩,
    ⟨"classifier_train", .int, .int 100⟩,
    ⟨"n_clusters", .int, .int 1⟩,
    ⟨"msg_delay", .str, .str "50000"⟩,
    ⟨"cluster", .int, .int 1⟩,
    ⟨"model_length", .str, .str "all"⟩]
  pieces := [⟨.always, "min_ebno", .arg "min_ebno"⟩,
    ⟨.always, "max_ebno", .arg "max_ebno"⟩,
    ⟨.always, "n_points", .arg "n_points"⟩,
    ⟨.always, "snr_scale", .arg "snr_scale"⟩,
    ⟨.always, "ldpciterations", .arg "ldpciterations"⟩,
    ⟨.always, "multiply_data", .arg "multiply_data"⟩,
    ⟨.always, "msg_delay", .arg "msg_delay"⟩,
    ⟨.always, "dec_type", .arg "dec_type"⟩,
    ⟨.always, "classifier_train", .arg "classifier_train"⟩,
    ⟨.always, "n_clusters", .arg "n_clusters"⟩,
    ⟨.always, "cluster", .arg "cluster"⟩,
    ⟨.always, "delta", .arg "delta"⟩,
    ⟨.always, "conf_center", .arg "conf_center"⟩,
    ⟨.always, "model_length", .arg "model_length"⟩,
    ⟨.always, "conf_slope", .arg "conf_slope"⟩,
    ⟨.always, "entropy_threshold", .arg "ent_threshold"⟩,
    ⟨.always, "clipping_factor", .arg "clipping_factor"⟩,
    ⟨.nPos, "N", .count⟩,
    ⟨.win, "window_len", .window⟩,
    ⟨.noWin, "window_len", .zero⟩,
    ⟨.procs, "processes", .procs⟩]

/-- runs/HC_eilat_July_2018/simluated_data_entropy_bf_decoders.py:23-34 (options), 258-270 (command). -/
def s08 : Script where
  file := "runs/HC_eilat_July_2018/simluated_data_entropy_bf_decoders.py"
  opts := [⟨"N", .int, .int 0⟩,
    ⟨"minflip", .float, .float (33 / 1000)⟩,
    ⟨"maxflip", .float, .float (7 / 100)⟩,
    ⟨"nflips", .int, .int 20⟩,
    ⟨"ldpciterations", .int, .int 300⟩,
    ⟨"ent_threshold", .float, .float (9 / 25)⟩,
    ⟨"window_len", .int, .int 50⟩,
    ⟨"multiply_data", .int, .int 0⟩,
    ⟨"processes", .int, .int 0⟩,
    ⟨"conf_center", .int, .int 40⟩,
    ⟨"conf_slope", .float, .float (7 / 20)⟩,
    ⟨"model_length", .str, .str "info"⟩]
  pieces := [⟨.always, "minflip", .arg "minflip"⟩,
    ⟨.always, "maxflip", .arg "maxflip"⟩,
    ⟨.always, "nflips", .arg "nflips"⟩,
    ⟨.always, "ldpciterations", .arg "ldpciterations"⟩,
    ⟨.always, "ent_threshold", .arg "ent_threshold"⟩,
    ⟨.always, "conf_center", .arg "conf_center"⟩,
    ⟨.always, "conf_slope", .arg "conf_slope"⟩,
    ⟨.always, "multiply_data", .arg "multiply_data"⟩,
    ⟨.always, "model_length", .arg "model_length"⟩,
    ⟨.win, "window_len", .window⟩,
    ⟨.noWin, "window_len", .zero⟩,
    ⟨.nPos, "N", .count⟩,
    ⟨.procs, "processes", .procs⟩]

/-- runs/HC_eilat_July_2018/simulate_gallager_bf.py:22-32 (options), 185-195 (command). -/
def s09 : Script where
  file := "runs/HC_eilat_July_2018/simulate_gallager_bf.py"
  opts := [⟨"N", .int, .int 0⟩,
    ⟨"minflip", .float, .float (1 / 1000)⟩,
    ⟨"maxflip", .float, .float (1 / 50)⟩,
    ⟨"nflips", .int, .int 15⟩,
    ⟨"ldpciterations", .int, .int 300⟩,
    ⟨"ent_threshold", .float, .float (9 / 25)⟩,
    ⟨"window_len", .int, .int 100⟩,
    ⟨"multiply_data", .int, .int 2⟩,
    ⟨"conf_center", .int, .int 40⟩,
    ⟨"conf_slope", .float, .float (7 / 20)⟩,
    ⟨"model_length", .str, .str "info"⟩]
  pieces := [⟨.always, "minflip", .arg "minflip"⟩,
    ⟨.always, "maxflip", .arg "maxflip"⟩,
    ⟨.always, "nflips", .arg "nflips"⟩,
    ⟨.always, "ldpciterations", .arg "ldpciterations"⟩,
    ⟨.always, "ent_threshold", .arg "ent_threshold"⟩,
    ⟨.always, "conf_center", .arg "conf_center"⟩,
    ⟨.always, "conf_slope", .arg "conf_slope"⟩,
    ⟨.always, "multiply_data", .arg "multiply_data"⟩,
    ⟨.always, "model_length", .arg "model_length"⟩,
    ⟨.win, "window_len", .window⟩,
    ⟨.noWin, "window_len", .zero⟩,
    ⟨.nPos, "N", .count⟩]

/-- runs/HC_eilat_July_2018/simulated_data_classifying_dude_decoder.py:22-39 (options), 210-219 (command). -/
def s10 : Script where
  file := "runs/HC_eilat_July_2018/simulated_data_classifying_dude_decoder.py"
  opts := [⟨"N", .int, .int 0⟩,
    ⟨"minflip", .float, .float (33 / 1000)⟩,
    ⟨"maxflip", .float, .float (7 / 100)⟩,
    ⟨"nflips", .int, .int 20⟩,
    ⟨"ldpciterations", .int, .int 20⟩,
    ⟨"ent_threshold", .float, .float (9 / 25)⟩,
    ⟨"clipping_factor", .int, .int 2⟩,
    ⟨"multiply_data", .int, .int 0⟩,
    ⟨"processes", .int, .int 0⟩,
    ⟨"conf_center", .int, .int 40⟩,
    ⟨"conf_slope", .float, .float (7 / 20)⟩,
    ⟨"dec_type", .str, .str "BP"⟩,
    ⟨"classifier_train", .int, .int 100⟩,
    ⟨"n_clusters", .int, .int 1⟩,
    ⟨"msg_delay", .str, .str "50000"⟩,
    ⟨"cluster", .int, .int 1⟩,
    ⟨"model_length", .str, .str "info"⟩,
    ⟨"context_length", .int, .int 8⟩]
  pieces := [⟨.always, "minflip", .arg "minflip"⟩,
    ⟨.always, "maxflip", .arg "maxflip"⟩,
    ⟨.always, "nflips", .arg "nflips"⟩,
    ⟨.always, "ldpciterations", .arg "ldpciterations"⟩,
    ⟨.always, "ent_threshold", .arg "ent_threshold"⟩,
    ⟨.always, "clipping_factor", .arg "clipping_factor"⟩,
    ⟨.always, "conf_center", .arg "conf_center"⟩,
    ⟨.always, "conf_slope", .arg "conf_slope"⟩,
    ⟨.always, "multiply_data", .arg "multiply_data"⟩,
    ⟨.always, "dec_type", .arg "dec_type"⟩,
    ⟨.always, "classifier_train", .arg "classifier_train"⟩,
    ⟨.always, "n_clusters", .arg "n_clusters"⟩,
    ⟨.always, "msg_delay", .arg "msg_delay"⟩,
    ⟨.always, "cluster", .arg "cluster"⟩,
    ⟨.always, "model_length", .arg "model_length"⟩,
    ⟨.always, "context_length", .arg "context_length"⟩,
    ⟨.nPos, "N", .count⟩,
    ⟨.procs, "processes", .procs⟩]

/-- runs/HC_eilat_July_2018/simulated_data_classifying_entropy_decoder.py:23-42 (options), 261-275 (command). -/
def s11 : Script where
  file := "runs/HC_eilat_July_2018/simulated_data_classifying_entropy_decoder.py"
  opts := [⟨"N", .int, .int 0⟩,
    ⟨"minflip", .float, .float (33 / 1000)⟩,
    ⟨"maxflip", .float, .float (7 / 100)⟩,
    ⟨"nflips", .int, .int 20⟩,
    ⟨"ldpciterations", .int, .int 20⟩,
    ⟨"ent_threshold", .float, .float (9 / 25)⟩,
    ⟨"window_len", .int, .int 50⟩,
    ⟨"clipping_factor", .int, .int 2⟩,
    ⟨"multiply_data", .int, .int 0⟩,
    ⟨"processes", .int, .int 0⟩,
    ⟨"conf_center", .int, .int 40⟩,
    ⟨"conf_slope", .float, .float (7 / 20)⟩,
    ⟨"dec_type", .str, .str "BP"⟩,
    ⟨"classifier_train", .int, .int 100⟩,
    ⟨"n_clusters", .int, .int 1⟩,
    ⟨"msg_delay", .str, .str "50000"⟩,
    ⟨"cluster", .int, .int 1⟩,
    ⟨"model_length", .str, .str "info"⟩,
    ⟨"wbf_variant", .int, .int 0⟩,
    ⟨"channel_type", .str, .str "bsc"⟩]
  pieces := [⟨.always, "minflip", .arg "minflip"⟩,
    ⟨.always, "maxflip", .arg "maxflip"⟩,
    ⟨.always, "nflips", .arg "nflips"⟩,
    ⟨.always, "ldpciterations", .arg "ldpciterations"⟩,
    ⟨.always, "ent_threshold", .arg "ent_threshold"⟩,
    ⟨.always, "clipping_factor", .arg "clipping_factor"⟩,
    ⟨.always, "conf_center", .arg "conf_center"⟩,
    ⟨.always, "conf_slope", .arg "conf_slope"⟩,
    ⟨.always, "multiply_data", .arg "multiply_data"⟩,
    ⟨.always, "dec_type", .arg "dec_type"⟩,
    ⟨.always, "classifier_train", .arg "classifier_train"⟩,
    ⟨.always, "n_clusters", .arg "n_clusters"⟩,
    ⟨.always, "msg_delay", .arg "msg_delay"⟩,
    ⟨.always, "cluster", .arg "cluster"⟩,
    ⟨.always, "model_length", .arg "model_length"⟩,
    ⟨.always, "wbf_variant", .arg "wbf_variant"⟩,
    ⟨.always, "channel_type", .arg "channel_type"⟩,
    ⟨.win, "window_len", .window⟩,
    ⟨.noWin, "window_len", .zero⟩,
    ⟨.nPos, "N", .count⟩,
    ⟨.procs, "processes", .procs⟩]

/-- runs/HC_eilat_July_2018/simulated_data_combined_decoder.py:24-49 (options), 283-298 (command). -/
def s12 : Script where
  file := "runs/HC_eilat_July_2018/simulated_data_combined_decoder.py"
  opts := [⟨"N", .int, .int 0⟩,
    ⟨"minflip", .float, .float (33 / 1000)⟩,
    ⟨"maxflip", .float, .float (7 / 100)⟩,
    ⟨"nflips", .int, .int 20⟩,
    ⟨"ldpciterations", .int, .int 20⟩,
    ⟨"multiply_data", .int, .int 0⟩,
    ⟨"processes", .int, .int 0⟩,
    ⟨"dec_type", .str, .str "BP"⟩,
    ⟨"classifier_train", .int, .int 100⟩,
    ⟨"n_clusters", .int, .int 1⟩,
    ⟨"msg_delay", .str, .str "50000"⟩,
    ⟨"cluster", .int, .int 1⟩,
    ⟨"valid_factor", .float, .float (2 / 1)⟩,
    ⟨"invalid_factor", .float, .float (7 / 10)⟩,
    ⟨"valid_threshold", .float, .float (3 / 100)⟩,
    ⟨"invalid_threshold", .float, .float (2 / 25)⟩,
    ⟨"window_len", .int, .int 50⟩,
    ⟨"learn", .int, .int 0⟩,
    ⟨"conf_center", .int, .int 40⟩,
    ⟨"conf_slope", .float, .float (7 / 20)⟩,
    ⟨"ent_threshold", .float, .float (9 / 25)⟩,
    ⟨"clipping_factor", .int, .int 2⟩,
    ⟨"flip", .int, .int 0⟩]
  pieces := [⟨.always, "minflip", .arg "minflip"⟩,
    ⟨.always, "maxflip", .arg "maxflip"⟩,
    ⟨.always, "nflips", .arg "nflips"⟩,
    ⟨.always, "ldpciterations", .arg "ldpciterations"⟩,
    ⟨.always, "multiply_data", .arg "multiply_data"⟩,
    ⟨.always, "msg_delay", .arg "msg_delay"⟩,
    ⟨.always, "dec_type", .arg "dec_type"⟩,
    ⟨.always, "classifier_train", .arg "classifier_train"⟩,
    ⟨.always, "n_clusters", .arg "n_clusters"⟩,
    ⟨.always, "cluster", .arg "cluster"⟩,
    ⟨.always, "valid_threshold", .arg "valid_threshold"⟩,
    ⟨.always, "invalid_threshold", .arg "invalid_threshold"⟩,
    ⟨.always, "valid_factor", .arg "valid_factor"⟩,
    ⟨.always, "invalid_factor", .arg "invalid_factor"⟩,
    ⟨.always, "conf_center", .arg "conf_center"⟩,
    ⟨.always, "conf_slope", .arg "conf_slope"⟩,
    ⟨.always, "learn", .arg "learn"⟩,
    ⟨.always, "ent_threshold", .arg "ent_threshold"⟩,
    ⟨.always, "clipping_factor", .arg "clipping_factor"⟩,
    ⟨.always, "flip", .arg "flip"⟩,
    ⟨.nPos, "N", .count⟩,
    ⟨.win, "window_len", .window⟩,
    ⟨.noWin, "window_len", .zero⟩,
    ⟨.procs, "processes", .procs⟩]

/-- runs/HC_eilat_July_2018/simulated_data_entropy_bitwise_decoder_predefined_model.py:22-28 (options), 79-83 (command). -/
def s13 : Script where
  file := "runs/HC_eilat_July_2018/simulated_data_entropy_bitwise_decoder_predefined_model.py"
  opts := [⟨"N", .int, .int 0⟩,
    ⟨"minflip", .float, .float (3 / 100)⟩,
    ⟨"maxflip", .float, .float (3 / 40)⟩,
    ⟨"nflips", .int, .int 3⟩,
    ⟨"ldpciterations", .int, .int 20⟩,
    ⟨"ent_threshold", .float, .float (9 / 25)⟩,
    ⟨"clipping_factor", .int, .int 2⟩]
  pieces := [⟨.always, "minflip", .arg "minflip"⟩,
    ⟨.always, "maxflip", .arg "maxflip"⟩,
    ⟨.always, "nflips", .arg "nflips"⟩,
    ⟨.always, "ldpciterations", .arg "ldpciterations"⟩,
    ⟨.always, "ent_threshold", .arg "ent_threshold"⟩,
    ⟨.always, "clipping_factor", .arg "clipping_factor"⟩,
    ⟨.nPos, "N", .count⟩]

/-- runs/HC_eilat_July_2018/simulated_data_entropy_bitwise_decoder_script.py:19-27 (options), 77-84 (command). -/
def s14 : Script where
  file := "runs/HC_eilat_July_2018/simulated_data_entropy_bitwise_decoder_script.py"
  opts := [⟨"N", .int, .int 0⟩,
    ⟨"minflip", .float, .float (9 / 250)⟩,
    ⟨"maxflip", .float, .float (11 / 200)⟩,
    ⟨"nflips", .int, .int 5⟩,
    ⟨"ldpciterations", .int, .int 10⟩,
    ⟨"ent_threshold", .float, .float (9 / 25)⟩,
    ⟨"window_len", .int, .int 0⟩,
    ⟨"clipping_factor", .int, .int 2⟩,
    ⟨"min_data", .int, .int 10⟩]
  pieces := [⟨.always, "minflip", .arg "minflip"⟩,
    ⟨.always, "maxflip", .arg "maxflip"⟩,
    ⟨.always, "nflips", .arg "nflips"⟩,
    ⟨.always, "ldpciterations", .arg "ldpciterations"⟩,
    ⟨.always, "ent_threshold", .arg "ent_threshold"⟩,
    ⟨.always, "clipping_factor", .arg "clipping_factor"⟩,
    ⟨.always, "min_data", .arg "min_data"⟩,
    ⟨.win, "window_len", .window⟩,
    ⟨.nPos, "N", .count⟩]

/-- runs/HC_eilat_July_2018/simulated_data_entropy_bitwise_decoder_script_mp.py:21-29 (options), 78-85 (command). -/
def s15 : Script where
  file := "runs/HC_eilat_July_2018/simulated_data_entropy_bitwise_decoder_script_mp.py"
  opts := [⟨"N", .int, .int 0⟩,
    ⟨"minflip", .float, .float (9 / 250)⟩,
    ⟨"maxflip", .float, .float (11 / 200)⟩,
    ⟨"nflips", .int, .int 5⟩,
    ⟨"ldpciterations", .int, .int 10⟩,
    ⟨"ent_threshold", .float, .float (9 / 25)⟩,
    ⟨"window_len", .int, .int 0⟩,
    ⟨"clipping_factor", .int, .int 2⟩,
    ⟨"min_data", .int, .int 10⟩]
  pieces := [⟨.always, "minflip", .arg "minflip"⟩,
    ⟨.always, "maxflip", .arg "maxflip"⟩,
    ⟨.always, "nflips", .arg "nflips"⟩,
    ⟨.always, "ldpciterations", .arg "ldpciterations"⟩,
    ⟨.always, "ent_threshold", .arg "ent_threshold"⟩,
    ⟨.always, "clipping_factor", .arg "clipping_factor"⟩,
    ⟨.always, "min_data", .arg "min_data"⟩,
    ⟨.win, "window_len", .window⟩,
    ⟨.nPos, "N", .count⟩]

/-- runs/HC_eilat_July_2018/simulated_data_entropy_bitwise_decoder_weighted_model.py:23-40 (options), 106-119 (command). -/
def s16 : Script where
  file := "runs/HC_eilat_July_2018/simulated_data_entropy_bitwise_decoder_weighted_model.py"
  opts := [⟨"N", .int, .int 0⟩,
    ⟨"minflip", .float, .float (33 / 1000)⟩,
    ⟨"maxflip", .float, .float (7 / 100)⟩,
    ⟨"nflips", .int, .int 20⟩,
    ⟨"ldpciterations", .int, .int 20⟩,
    ⟨"ent_threshold", .float, .float (9 / 25)⟩,
    ⟨"window_len", .int, .int 50⟩,
    ⟨"clipping_factor", .int, .int 2⟩,
    ⟨"multiply_data", .int, .int 0⟩,
    ⟨"processes", .int, .int 0⟩,
    ⟨"a_conf_center", .int, .int 20⟩,
    ⟨"a_conf_slope", .float, .float (7 / 20)⟩,
    ⟨"b_conf_center", .int, .int 40⟩,
    ⟨"b_conf_slope", .float, .float (7 / 20)⟩,
    ⟨"confidence", .int, .int 0⟩,
    ⟨"dec_type", .str, .str "BP"⟩,
    ⟨"corrected_dist", .int, .int 1⟩,
    ⟨"estimator", .str, .str "MLE"⟩]
  pieces := [⟨.always, "minflip", .arg "minflip"⟩,
    ⟨.always, "maxflip", .arg "maxflip"⟩,
    ⟨.always, "nflips", .arg "nflips"⟩,
    ⟨.always, "ldpciterations", .arg "ldpciterations"⟩,
    ⟨.always, "ent_threshold", .arg "ent_threshold"⟩,
    ⟨.always, "clipping_factor", .arg "clipping_factor"⟩,
    ⟨.always, "a_conf_center", .arg "a_conf_center"⟩,
    ⟨.always, "a_conf_slope", .arg "a_conf_slope"⟩,
    ⟨.always, "b_conf_center", .arg "b_conf_center"⟩,
    ⟨.always, "b_conf_slope", .arg "b_conf_slope"⟩,
    ⟨.always, "confidence", .arg "confidence"⟩,
    ⟨.always, "multiply_data", .arg "multiply_data"⟩,
    ⟨.always, "dec_type", .arg "dec_type"⟩,
    ⟨.always, "corrected_dist", .arg "corrected_dist"⟩,
    ⟨.always, "estimator", .arg "estimator"⟩,
    ⟨.win, "window_len", .window⟩,
    ⟨.noWin, "window_len", .zero⟩,
    ⟨.nPos, "N", .count⟩,
    ⟨.nPosProcs, "processes", .procs⟩]

/-- runs/HC_eilat_July_2018/simulated_data_entropy_bitwise_decoder_weighted_model_averaged.py:21-36 (options), 101-113 (command). -/
def s17 : Script where
  file := "runs/HC_eilat_July_2018/simulated_data_entropy_bitwise_decoder_weighted_model_averaged.py"
  opts := [⟨"N", .int, .int 0⟩,
    ⟨"minflip", .float, .float (33 / 1000)⟩,
    ⟨"maxflip", .float, .float (7 / 100)⟩,
    ⟨"nflips", .int, .int 20⟩,
    ⟨"ldpciterations", .int, .int 20⟩,
    ⟨"ent_threshold", .float, .float (9 / 25)⟩,
    ⟨"window_len", .int, .int 50⟩,
    ⟨"clipping_factor", .int, .int 2⟩,
    ⟨"multiply_data", .int, .int 0⟩,
    ⟨"processes", .int, .int 0⟩,
    ⟨"a_conf_center", .int, .int 20⟩,
    ⟨"a_conf_slope", .float, .float (7 / 20)⟩,
    ⟨"b_conf_center", .int, .int 40⟩,
    ⟨"b_conf_slope", .float, .float (7 / 20)⟩,
    ⟨"confidence", .int, .int 0⟩,
    ⟨"averaging", .int, .int 1⟩]
  pieces := [⟨.always, "minflip", .arg "minflip"⟩,
    ⟨.always, "maxflip", .arg "maxflip"⟩,
    ⟨.always, "nflips", .arg "nflips"⟩,
    ⟨.always, "ldpciterations", .arg "ldpciterations"⟩,
    ⟨.always, "ent_threshold", .arg "ent_threshold"⟩,
    ⟨.always, "clipping_factor", .arg "clipping_factor"⟩,
    ⟨.always, "a_conf_center", .arg "a_conf_center"⟩,
    ⟨.always, "a_conf_slope", .arg "a_conf_slope"⟩,
    ⟨.always, "b_conf_center", .arg "b_conf_center"⟩,
    ⟨.always, "b_conf_slope", .arg "b_conf_slope"⟩,
    ⟨.always, "confidence", .arg "confidence"⟩,
    ⟨.always, "averaging", .arg "averaging"⟩,
    ⟨.win, "window_len", .window⟩,
    ⟨.nPos, "N", .count⟩,
    ⟨.mulPos, "multiply_data", .arg "multiply_data"⟩,
    ⟨.procs, "processes", .procs⟩]

/-- runs/HC_eilat_July_2018/simulated_data_mavlink_decoding.py:24-47 (options), 249-263 (command). -/
def s18 : Script where
  file := "runs/HC_eilat_July_2018/simulated_data_mavlink_decoding.py"
  opts := [⟨"N", .int, .int 0⟩,
    ⟨"minflip", .float, .float (33 / 1000)⟩,
    ⟨"maxflip", .float, .float (7 / 100)⟩,
    ⟨"nflips", .int, .int 20⟩,
    ⟨"ldpciterations", .int, .int 20⟩,
    ⟨"segiterations", .int, .int 1⟩,
    ⟨"multiply_data", .int, .int 0⟩,
    ⟨"processes", .int, .int 0⟩,
    ⟨"dec_type", .str, .str "BP"⟩,
    ⟨"classifier_train", .int, .int 100⟩,
    ⟨"n_clusters", .int, .int 1⟩,
    ⟨"msg_delay", .str, .str "50000"⟩,
    ⟨"cluster", .int, .int 1⟩,
    ⟨"valid_factor", .float, .float (2 / 1)⟩,
    ⟨"invalid_factor", .float, .float (7 / 10)⟩,
    ⟨"valid_threshold", .float, .float (3 / 100)⟩,
    ⟨"invalid_threshold", .float, .float (2 / 25)⟩,
    ⟨"window_len", .int, .int 50⟩,
    ⟨"learn", .int, .int 0⟩,
    ⟨"conf_center", .int, .int 40⟩,
    ⟨"conf_slope", .float, .float (7 / 20)⟩]
  pieces := [⟨.always, "minflip", .arg "minflip"⟩,
    ⟨.always, "maxflip", .arg "maxflip"⟩,
    ⟨.always, "nflips", .arg "nflips"⟩,
    ⟨.always, "ldpciterations", .arg "ldpciterations"⟩,
    ⟨.always, "segiterations", .arg "segiterations"⟩,
    ⟨.always, "multiply_data", .arg "multiply_data"⟩,
    ⟨.always, "msg_delay", .arg "msg_delay"⟩,
    ⟨.always, "dec_type", .arg "dec_type"⟩,
    ⟨.always, "classifier_train", .arg "classifier_train"⟩,
    ⟨.always, "n_clusters", .arg "n_clusters"⟩,
    ⟨.always, "cluster", .arg "cluster"⟩,
    ⟨.always, "valid_threshold", .arg "valid_threshold"⟩,
    ⟨.always, "invalid_threshold", .arg "invalid_threshold"⟩,
    ⟨.always, "valid_factor", .arg "valid_factor"⟩,
    ⟨.always, "invalid_factor", .arg "invalid_factor"⟩,
    ⟨.always, "conf_center", .arg "conf_center"⟩,
    ⟨.always, "conf_slope", .arg "conf_slope"⟩,
    ⟨.always, "learn", .arg "learn"⟩,
    ⟨.nPos, "N", .count⟩,
    ⟨.win, "window_len", .window⟩,
    ⟨.noWin, "window_len", .zero⟩,
    ⟨.procs, "processes", .procs⟩]

/-- runs/HC_eilat_July_2018/simulated_data_pretrained_model.py:24-38 (options), 213-224 (command). -/
def s19 : Script where
  file := "runs/HC_eilat_July_2018/simulated_data_pretrained_model.py"
  opts := [⟨"N", .int, .int 0⟩,
    ⟨"minflip", .float, .float (33 / 1000)⟩,
    ⟨"maxflip", .float, .float (7 / 100)⟩,
    ⟨"nflips", .int, .int 20⟩,
    ⟨"ldpciterations", .int, .int 20⟩,
    ⟨"ent_threshold", .float, .float (9 / 25)⟩,
    ⟨"window_len", .int, .int 50⟩,
    ⟨"clipping_factor", .int, .int 2⟩,
    ⟨"multiply_data", .int, .int 0⟩,
    ⟨"processes", .int, .int 0⟩,
    ⟨"conf_center", .int, .int 40⟩,
    ⟨"conf_slope", .float, .float (7 / 20)⟩,
    ⟨"dec_type", .str, .str "BP"⟩,
    ⟨"msg_delay", .str, .str "50000"⟩,
    ⟨"model_length", .str, .str "info"⟩]
  pieces := [⟨.always, "minflip", .arg "minflip"⟩,
    ⟨.always, "maxflip", .arg "maxflip"⟩,
    ⟨.always, "nflips", .arg "nflips"⟩,
    ⟨.always, "ldpciterations", .arg "ldpciterations"⟩,
    ⟨.always, "multiply_data", .arg "multiply_data"⟩,
    ⟨.always, "msg_delay", .arg "msg_delay"⟩,
    ⟨.always, "dec_type", .arg "dec_type"⟩,
    ⟨.always, "conf_center", .arg "conf_center"⟩,
    ⟨.always, "model_length", .arg "model_length"⟩,
    ⟨.always, "conf_slope", .arg "conf_slope"⟩,
    ⟨.always, "entropy_threshold", .arg "ent_threshold"⟩,
    ⟨.always, "clipping_factor", .arg "clipping_factor"⟩,
    ⟨.nPos, "N", .count⟩,
    ⟨.win, "window_len", .window⟩,
    ⟨.noWin, "window_len", .zero⟩,
    ⟨.procs, "processes", .procs⟩]

/-- runs/clsutering_analysis/clustering_analysis.py:16-22 (options), 115-115 (command). -/
def s20 : Script where
  file := "runs/clsutering_analysis/clustering_analysis.py"
  opts := [⟨"n_classes", .int, .int 3⟩,
    ⟨"p", .float, .float (7 / 100)⟩,
    ⟨"n_training", .int, .int 150⟩,
    ⟨"train_with_errors", .int, .int 1⟩,
    ⟨"shuffle", .int, .int 1⟩,
    ⟨"n_runs", .int, .int 10⟩,
    ⟨"n_jobs", .int, .int 0⟩]
  pieces := [⟨.always, "n_classes", .arg "n_classes"⟩,
    ⟨.always, "p", .arg "p"⟩,
    ⟨.always, "n_training", .arg "n_training"⟩,
    ⟨.always, "train_with_errors", .truth "train_with_errors"⟩,
    ⟨.always, "shuffle", .truth "shuffle"⟩,
    ⟨.always, "n_runs", .arg "n_runs"⟩]

/-- scripts/classifier_analysis.py:20-33 (options), 368-376 (command). -/
def s21 : Script where
  file := "scripts/classifier_analysis.py"
  opts := [⟨"minflip", .float, .float (33 / 1000)⟩,
    ⟨"maxflip", .float, .float (7 / 100)⟩,
    ⟨"nflips", .int, .int 20⟩,
    ⟨"multiply_data", .int, .int 0⟩,
    ⟨"processes", .int, .int 0⟩,
    ⟨"msg_delay", .str, .str "20000"⟩,
    ⟨"threshold", .float, .int 0⟩,
    ⟨"window_len", .int, .int 50⟩,
    ⟨"learn", .int, .int 0⟩,
    ⟨"conf_center", .int, .int 40⟩,
    ⟨"conf_slope", .float, .float (7 / 20)⟩,
    ⟨"n_clusters", .int, .int 1⟩]
  pieces := [⟨.always, "minflip", .arg "minflip"⟩,
    ⟨.always, "maxflip", .arg "maxflip"⟩,
    ⟨.always, "nflips", .arg "nflips"⟩,
    ⟨.always, "multiply_data", .arg "multiply_data"⟩,
    ⟨.always, "msg_delay", .arg "msg_delay"⟩,
    ⟨.always, "n_clusters", .arg "n_clusters"⟩,
    ⟨.always, "threshold", .arg "threshold"⟩,
    ⟨.always, "conf_center", .arg "conf_center"⟩,
    ⟨.always, "conf_slope", .arg "conf_slope"⟩,
    ⟨.always, "learn", .arg "learn"⟩,
    ⟨.win, "window_len", .window⟩,
    ⟨.noWin, "window_len", .zero⟩,
    ⟨.procs, "processes", .procs⟩]

/-- All scripts that record their command. -/
def scripts : List Script := [s00, s01, s02, s03, s04, s05, s06, s07, s08, s09, s10, s11, s12, s13, s14, s15, s16, s17, s18, s19, s20, s21]

end NR.Command
