import Verif.Model.Wrappers
import Verif.Model.Minimal
/-
GENERATED by tools/gen_minimal.py from the text of /repo/mavlink_utils/minimal_dialect.py: the constructors of the message classes and the
`*_encode` and `*_send` methods of `class MAVLink`, with the checks listed in WrapperTable.lean.
-/
namespace NR.Minimal

/-- minimal_dialect.py:2066-2076 `MAVLink_heartbeat_message.__init__` -/
def init0 : InitDef where
  cls := "MAVLink_heartbeat_message"
  msg := min0
  params := ["type", "autopilot", "base_mode", "custom_mode", "system_status", "mavlink_version"]
  assigns := [("type", "type"), ("autopilot", "autopilot"), ("base_mode", "base_mode"), ("custom_mode", "custom_mode"), ("system_status", "system_status"), ("mavlink_version", "mavlink_version")]

/-- minimal_dialect.py:2106-2121 `MAVLink_global_position_int_message.__init__` -/
def init33 : InitDef where
  cls := "MAVLink_global_position_int_message"
  msg := min33
  params := ["time_boot_ms", "lat", "lon", "alt", "relative_alt", "bottom_clearnce", "depth", "vx", "vy", "vz", "hdg"]
  assigns := [("time_boot_ms", "time_boot_ms"), ("lat", "lat"), ("lon", "lon"), ("alt", "alt"), ("relative_alt", "relative_alt"), ("bottom_clearnce", "bottom_clearnce"), ("depth", "depth"), ("vx", "vx"), ("vy", "vy"), ("vz", "vz"), ("hdg", "hdg")]

/-- minimal_dialect.py:2148-2158 `MAVLink_scaled_svs_message.__init__` -/
def init212 : InitDef where
  cls := "MAVLink_scaled_svs_message"
  msg := min212
  params := ["time_boot_ms", "Speed_of_Sound", "Depth", "Temperature", "Status", "Reserved"]
  assigns := [("time_boot_ms", "time_boot_ms"), ("Speed_of_Sound", "Speed_of_Sound"), ("Depth", "Depth"), ("Temperature", "Temperature"), ("Status", "Status"), ("Reserved", "Reserved")]

/-- minimal_dialect.py:2186-2195 `MAVLink_chamber_status_message.__init__` -/
def init218 : InitDef where
  cls := "MAVLink_chamber_status_message"
  msg := min218
  params := ["time_boot_ms", "chamber_num", "pressure", "temperature", "humidity"]
  assigns := [("time_boot_ms", "time_boot_ms"), ("chamber_num", "chamber_num"), ("pressure", "pressure"), ("temperature", "temperature"), ("humidity", "humidity")]

/-- minimal_dialect.py:2222-2232 `MAVLink_system_status_2_message.__init__` -/
def init225 : InitDef where
  cls := "MAVLink_system_status_2_message"
  msg := min225
  params := ["time_boot_ms", "hc_mode", "hc_system_status", "hc_err_id", "debug1", "debug2"]
  assigns := [("time_boot_ms", "time_boot_ms"), ("hc_mode", "hc_mode"), ("hc_system_status", "hc_system_status"), ("hc_err_id", "hc_err_id"), ("debug1", "debug1"), ("debug2", "debug2")]

/-- minimal_dialect.py:2259-2266 `MAVLink_pinger_data_message.__init__` -/
def init234 : InitDef where
  cls := "MAVLink_pinger_data_message"
  msg := min234
  params := ["time_boot_ms", "range", "azimuth"]
  assigns := [("time_boot_ms", "time_boot_ms"), ("range", "range"), ("azimuth", "azimuth")]

/-- minimal_dialect.py:2684-2700 -/
def encode0 : EncodeDef where
  name := "heartbeat_encode"
  params := ["type", "autopilot", "base_mode", "custom_mode", "system_status", "mavlink_version"]
  defaults := [("mavlink_version", 3)]
  callee := "MAVLink_heartbeat_message"
  args := ["type", "autopilot", "base_mode", "custom_mode", "system_status", "mavlink_version"]

/-- minimal_dialect.py:2702-2718 -/
def send0 : SendDef where
  name := "heartbeat_send"
  params := ["type", "autopilot", "base_mode", "custom_mode", "system_status", "mavlink_version", "force_mavlink1"]
  defaults := [("mavlink_version", 3), ("force_mavlink1", 0)]
  encode := "heartbeat_encode"
  args := ["type", "autopilot", "base_mode", "custom_mode", "system_status", "mavlink_version"]

/-- minimal_dialect.py:2720-2740 -/
def encode33 : EncodeDef where
  name := "global_position_int_encode"
  params := ["time_boot_ms", "lat", "lon", "alt", "relative_alt", "bottom_clearnce", "depth", "vx", "vy", "vz", "hdg"]
  defaults := []
  callee := "MAVLink_global_position_int_message"
  args := ["time_boot_ms", "lat", "lon", "alt", "relative_alt", "bottom_clearnce", "depth", "vx", "vy", "vz", "hdg"]

/-- minimal_dialect.py:2742-2762 -/
def send33 : SendDef where
  name := "global_position_int_send"
  params := ["time_boot_ms", "lat", "lon", "alt", "relative_alt", "bottom_clearnce", "depth", "vx", "vy", "vz", "hdg", "force_mavlink1"]
  defaults := [("force_mavlink1", 0)]
  encode := "global_position_int_encode"
  args := ["time_boot_ms", "lat", "lon", "alt", "relative_alt", "bottom_clearnce", "depth", "vx", "vy", "vz", "hdg"]

/-- minimal_dialect.py:2764-2776 -/
def encode212 : EncodeDef where
  name := "scaled_svs_encode"
  params := ["time_boot_ms", "Speed_of_Sound", "Depth", "Temperature", "Status", "Reserved"]
  defaults := []
  callee := "MAVLink_scaled_svs_message"
  args := ["time_boot_ms", "Speed_of_Sound", "Depth", "Temperature", "Status", "Reserved"]

/-- minimal_dialect.py:2778-2790 -/
def send212 : SendDef where
  name := "scaled_svs_send"
  params := ["time_boot_ms", "Speed_of_Sound", "Depth", "Temperature", "Status", "Reserved", "force_mavlink1"]
  defaults := [("force_mavlink1", 0)]
  encode := "scaled_svs_encode"
  args := ["time_boot_ms", "Speed_of_Sound", "Depth", "Temperature", "Status", "Reserved"]

/-- minimal_dialect.py:2792-2804 -/
def encode218 : EncodeDef where
  name := "chamber_status_encode"
  params := ["time_boot_ms", "chamber_num", "pressure", "temperature", "humidity"]
  defaults := []
  callee := "MAVLink_chamber_status_message"
  args := ["time_boot_ms", "chamber_num", "pressure", "temperature", "humidity"]

/-- minimal_dialect.py:2806-2818 -/
def send218 : SendDef where
  name := "chamber_status_send"
  params := ["time_boot_ms", "chamber_num", "pressure", "temperature", "humidity", "force_mavlink1"]
  defaults := [("force_mavlink1", 0)]
  encode := "chamber_status_encode"
  args := ["time_boot_ms", "chamber_num", "pressure", "temperature", "humidity"]

/-- minimal_dialect.py:2820-2832 -/
def encode225 : EncodeDef where
  name := "system_status_2_encode"
  params := ["time_boot_ms", "hc_mode", "hc_system_status", "hc_err_id", "debug1", "debug2"]
  defaults := []
  callee := "MAVLink_system_status_2_message"
  args := ["time_boot_ms", "hc_mode", "hc_system_status", "hc_err_id", "debug1", "debug2"]

/-- minimal_dialect.py:2834-2846 -/
def send225 : SendDef where
  name := "system_status_2_send"
  params := ["time_boot_ms", "hc_mode", "hc_system_status", "hc_err_id", "debug1", "debug2", "force_mavlink1"]
  defaults := [("force_mavlink1", 0)]
  encode := "system_status_2_encode"
  args := ["time_boot_ms", "hc_mode", "hc_system_status", "hc_err_id", "debug1", "debug2"]

/-- minimal_dialect.py:2848-2857 -/
def encode234 : EncodeDef where
  name := "pinger_data_encode"
  params := ["time_boot_ms", "range", "azimuth"]
  defaults := []
  callee := "MAVLink_pinger_data_message"
  args := ["time_boot_ms", "range", "azimuth"]

/-- minimal_dialect.py:2859-2868 -/
def send234 : SendDef where
  name := "pinger_data_send"
  params := ["time_boot_ms", "range", "azimuth", "force_mavlink1"]
  defaults := [("force_mavlink1", 0)]
  encode := "pinger_data_encode"
  args := ["time_boot_ms", "range", "azimuth"]

/-- All constructors. -/
def inits : List InitDef := [init0, init33, init212, init218, init225, init234]

/-- All `*_encode` methods. -/
def encodeDefs : List EncodeDef := [encode0, encode33, encode212, encode218, encode225, encode234]

/-- All `*_send` methods. -/
def sendDefs : List SendDef := [send0, send33, send212, send218, send225, send234]

end NR.Minimal
