import Verif.Model.Stream
/-
GENERATED from the text of /repo/mavlink_utils/HC_dialect.py: the constructors of the message classes (lines 2189-8389)
and the `*_encode` and `*_send` methods of `class MAVLink` (lines 8956-14254). Checked while generating, for all 155
messages: every constructor calls `MAVLink_message.__init__` with `id` and `name` of its own class, sets `_fieldnames`,
`_instance_field` and `_instance_offset` from its own class, and otherwise only assigns parameters to attributes; the body of
an `encode` method is `return <callee>(<args>)`; the body of a `send` method is
`return self.send(self.<encode>(<args>), force_mavlink1=force_mavlink1)`; no method is defined twice or decorated; a default
value is an integer or `False` (recorded as 0).
-/
namespace NR
open Dialect

/-- `def __init__` of a message class: `cls` is the name of the class, `msg` its attributes, `assigns` the attributes set and
the names they are set to. -/
structure InitDef where
  cls : String
  msg : MsgClass
  params : List String
  assigns : List (String × String)

/-- An `*_encode` method: the parameters after `self`, the default values, the name of the class called and the
arguments of the call. -/
structure EncodeDef where
  name : String
  params : List String
  defaults : List (String × Int)
  callee : String
  args : List String

/-- A `*_send` method: the parameters after `self`, the default values, the name of the method called to build the message
and the arguments of that call. -/
structure SendDef where
  name : String
  params : List String
  defaults : List (String × Int)
  encode : String
  args : List String

namespace Dialect

/-- HC_dialect.py:2215-2225 `MAVLink_heartbeat_message.__init__` -/
def init0 : InitDef where
  cls := "MAVLink_heartbeat_message"
  msg := msg0
  params := ["type", "autopilot", "base_mode", "custom_mode", "system_status", "mavlink_version"]
  assigns := [("type", "type"), ("autopilot", "autopilot"), ("base_mode", "base_mode"), ("custom_mode", "custom_mode"), ("system_status", "system_status"), ("mavlink_version", "mavlink_version")]

/-- HC_dialect.py:2267-2284 `MAVLink_sys_status_message.__init__` -/
def init1 : InitDef where
  cls := "MAVLink_sys_status_message"
  msg := msg1
  params := ["onboard_control_sensors_present", "onboard_control_sensors_enabled", "onboard_control_sensors_health", "load", "voltage_battery", "current_battery", "battery_remaining", "drop_rate_comm", "errors_comm", "errors_count1", "errors_count2", "errors_count3", "errors_count4"]
  assigns := [("onboard_control_sensors_present", "onboard_control_sensors_present"), ("onboard_control_sensors_enabled", "onboard_control_sensors_enabled"), ("onboard_control_sensors_health", "onboard_control_sensors_health"), ("load", "load"), ("voltage_battery", "voltage_battery"), ("current_battery", "current_battery"), ("battery_remaining", "battery_remaining"), ("drop_rate_comm", "drop_rate_comm"), ("errors_comm", "errors_comm"), ("errors_count1", "errors_count1"), ("errors_count2", "errors_count2"), ("errors_count3", "errors_count3"), ("errors_count4", "errors_count4")]

/-- HC_dialect.py:2312-2318 `MAVLink_system_time_message.__init__` -/
def init2 : InitDef where
  cls := "MAVLink_system_time_message"
  msg := msg2
  params := ["time_unix_usec", "time_boot_ms"]
  assigns := [("time_unix_usec", "time_unix_usec"), ("time_boot_ms", "time_boot_ms")]

/-- HC_dialect.py:2347-2355 `MAVLink_ping_message.__init__` -/
def init4 : InitDef where
  cls := "MAVLink_ping_message"
  msg := msg4
  params := ["time_usec", "seq", "target_system", "target_component"]
  assigns := [("time_usec", "time_usec"), ("seq", "seq"), ("target_system", "target_system"), ("target_component", "target_component")]

/-- HC_dialect.py:2382-2390 `MAVLink_change_operator_control_message.__init__` -/
def init5 : InitDef where
  cls := "MAVLink_change_operator_control_message"
  msg := msg5
  params := ["target_system", "control_request", "version", "passkey"]
  assigns := [("target_system", "target_system"), ("control_request", "control_request"), ("version", "version"), ("passkey", "passkey")]

/-- HC_dialect.py:2417-2424 `MAVLink_change_operator_control_ack_message.__init__` -/
def init6 : InitDef where
  cls := "MAVLink_change_operator_control_ack_message"
  msg := msg6
  params := ["gcs_system_id", "control_request", "ack"]
  assigns := [("gcs_system_id", "gcs_system_id"), ("control_request", "control_request"), ("ack", "ack")]

/-- HC_dialect.py:2454-2459 `MAVLink_auth_key_message.__init__` -/
def init7 : InitDef where
  cls := "MAVLink_auth_key_message"
  msg := msg7
  params := ["key"]
  assigns := [("key", "key")]

/-- HC_dialect.py:2490-2497 `MAVLink_set_mode_message.__init__` -/
def init11 : InitDef where
  cls := "MAVLink_set_mode_message"
  msg := msg11
  params := ["target_system", "base_mode", "custom_mode"]
  assigns := [("target_system", "target_system"), ("base_mode", "base_mode"), ("custom_mode", "custom_mode")]

/-- HC_dialect.py:2531-2539 `MAVLink_param_request_read_message.__init__` -/
def init20 : InitDef where
  cls := "MAVLink_param_request_read_message"
  msg := msg20
  params := ["target_system", "target_component", "param_id", "param_index"]
  assigns := [("target_system", "target_system"), ("target_component", "target_component"), ("param_id", "param_id"), ("param_index", "param_index")]

/-- HC_dialect.py:2567-2573 `MAVLink_param_request_list_message.__init__` -/
def init21 : InitDef where
  cls := "MAVLink_param_request_list_message"
  msg := msg21
  params := ["target_system", "target_component"]
  assigns := [("target_system", "target_system"), ("target_component", "target_component")]

/-- HC_dialect.py:2603-2612 `MAVLink_param_value_message.__init__` -/
def init22 : InitDef where
  cls := "MAVLink_param_value_message"
  msg := msg22
  params := ["param_id", "param_value", "param_type", "param_count", "param_index"]
  assigns := [("param_id", "param_id"), ("param_value", "param_value"), ("param_type", "param_type"), ("param_count", "param_count"), ("param_index", "param_index")]

/-- HC_dialect.py:2648-2657 `MAVLink_param_set_message.__init__` -/
def init23 : InitDef where
  cls := "MAVLink_param_set_message"
  msg := msg23
  params := ["target_system", "target_component", "param_id", "param_value", "param_type"]
  assigns := [("target_system", "target_system"), ("target_component", "target_component"), ("param_id", "param_id"), ("param_value", "param_value"), ("param_type", "param_type")]

/-- HC_dialect.py:2688-2702 `MAVLink_gps_raw_int_message.__init__` -/
def init24 : InitDef where
  cls := "MAVLink_gps_raw_int_message"
  msg := msg24
  params := ["time_usec", "fix_type", "lat", "lon", "alt", "eph", "epv", "vel", "cog", "satellites_visible"]
  assigns := [("time_usec", "time_usec"), ("fix_type", "fix_type"), ("lat", "lat"), ("lon", "lon"), ("alt", "alt"), ("eph", "eph"), ("epv", "epv"), ("vel", "vel"), ("cog", "cog"), ("satellites_visible", "satellites_visible")]

/-- HC_dialect.py:2733-2743 `MAVLink_gps_status_message.__init__` -/
def init25 : InitDef where
  cls := "MAVLink_gps_status_message"
  msg := msg25
  params := ["satellites_visible", "satellite_prn", "satellite_used", "satellite_elevation", "satellite_azimuth", "satellite_snr"]
  assigns := [("satellites_visible", "satellites_visible"), ("satellite_prn", "satellite_prn"), ("satellite_used", "satellite_used"), ("satellite_elevation", "satellite_elevation"), ("satellite_azimuth", "satellite_azimuth"), ("satellite_snr", "satellite_snr")]

/-- HC_dialect.py:2772-2786 `MAVLink_scaled_imu_message.__init__` -/
def init26 : InitDef where
  cls := "MAVLink_scaled_imu_message"
  msg := msg26
  params := ["time_boot_ms", "xacc", "yacc", "zacc", "xgyro", "ygyro", "zgyro", "xmag", "ymag", "zmag"]
  assigns := [("time_boot_ms", "time_boot_ms"), ("xacc", "xacc"), ("yacc", "yacc"), ("zacc", "zacc"), ("xgyro", "xgyro"), ("ygyro", "ygyro"), ("zgyro", "zgyro"), ("xmag", "xmag"), ("ymag", "ymag"), ("zmag", "zmag")]

/-- HC_dialect.py:2815-2829 `MAVLink_raw_imu_message.__init__` -/
def init27 : InitDef where
  cls := "MAVLink_raw_imu_message"
  msg := msg27
  params := ["time_usec", "xacc", "yacc", "zacc", "xgyro", "ygyro", "zgyro", "xmag", "ymag", "zmag"]
  assigns := [("time_usec", "time_usec"), ("xacc", "xacc"), ("yacc", "yacc"), ("zacc", "zacc"), ("xgyro", "xgyro"), ("ygyro", "ygyro"), ("zgyro", "zgyro"), ("xmag", "xmag"), ("ymag", "ymag"), ("zmag", "zmag")]

/-- HC_dialect.py:2858-2867 `MAVLink_raw_pressure_message.__init__` -/
def init28 : InitDef where
  cls := "MAVLink_raw_pressure_message"
  msg := msg28
  params := ["time_usec", "press_abs", "press_diff1", "press_diff2", "temperature"]
  assigns := [("time_usec", "time_usec"), ("press_abs", "press_abs"), ("press_diff1", "press_diff1"), ("press_diff2", "press_diff2"), ("temperature", "temperature")]

/-- HC_dialect.py:2896-2904 `MAVLink_scaled_pressure_message.__init__` -/
def init29 : InitDef where
  cls := "MAVLink_scaled_pressure_message"
  msg := msg29
  params := ["time_boot_ms", "press_abs", "press_diff", "temperature"]
  assigns := [("time_boot_ms", "time_boot_ms"), ("press_abs", "press_abs"), ("press_diff", "press_diff"), ("temperature", "temperature")]

/-- HC_dialect.py:2932-2943 `MAVLink_attitude_message.__init__` -/
def init30 : InitDef where
  cls := "MAVLink_attitude_message"
  msg := msg30
  params := ["time_boot_ms", "roll", "pitch", "yaw", "rollspeed", "pitchspeed", "yawspeed"]
  assigns := [("time_boot_ms", "time_boot_ms"), ("roll", "roll"), ("pitch", "pitch"), ("yaw", "yaw"), ("rollspeed", "rollspeed"), ("pitchspeed", "pitchspeed"), ("yawspeed", "yawspeed")]

/-- HC_dialect.py:2973-2985 `MAVLink_attitude_quaternion_message.__init__` -/
def init31 : InitDef where
  cls := "MAVLink_attitude_quaternion_message"
  msg := msg31
  params := ["time_boot_ms", "q1", "q2", "q3", "q4", "rollspeed", "pitchspeed", "yawspeed"]
  assigns := [("time_boot_ms", "time_boot_ms"), ("q1", "q1"), ("q2", "q2"), ("q3", "q3"), ("q4", "q4"), ("rollspeed", "rollspeed"), ("pitchspeed", "pitchspeed"), ("yawspeed", "yawspeed")]

/-- HC_dialect.py:3014-3025 `MAVLink_local_position_ned_message.__init__` -/
def init32 : InitDef where
  cls := "MAVLink_local_position_ned_message"
  msg := msg32
  params := ["time_boot_ms", "x", "y", "z", "vx", "vy", "vz"]
  assigns := [("time_boot_ms", "time_boot_ms"), ("x", "x"), ("y", "y"), ("z", "z"), ("vx", "vx"), ("vy", "vy"), ("vz", "vz")]

/-- HC_dialect.py:3055-3070 `MAVLink_global_position_int_message.__init__` -/
def init33 : InitDef where
  cls := "MAVLink_global_position_int_message"
  msg := msg33
  params := ["time_boot_ms", "lat", "lon", "alt", "relative_alt", "bottom_clearnce", "depth", "vx", "vy", "vz", "hdg"]
  assigns := [("time_boot_ms", "time_boot_ms"), ("lat", "lat"), ("lon", "lon"), ("alt", "alt"), ("relative_alt", "relative_alt"), ("bottom_clearnce", "bottom_clearnce"), ("depth", "depth"), ("vx", "vx"), ("vy", "vy"), ("vz", "vz"), ("hdg", "hdg")]

/-- HC_dialect.py:3099-3114 `MAVLink_rc_channels_scaled_message.__init__` -/
def init34 : InitDef where
  cls := "MAVLink_rc_channels_scaled_message"
  msg := msg34
  params := ["time_boot_ms", "port", "chan1_scaled", "chan2_scaled", "chan3_scaled", "chan4_scaled", "chan5_scaled", "chan6_scaled", "chan7_scaled", "chan8_scaled", "rssi"]
  assigns := [("time_boot_ms", "time_boot_ms"), ("port", "port"), ("chan1_scaled", "chan1_scaled"), ("chan2_scaled", "chan2_scaled"), ("chan3_scaled", "chan3_scaled"), ("chan4_scaled", "chan4_scaled"), ("chan5_scaled", "chan5_scaled"), ("chan6_scaled", "chan6_scaled"), ("chan7_scaled", "chan7_scaled"), ("chan8_scaled", "chan8_scaled"), ("rssi", "rssi")]

/-- HC_dialect.py:3144-3159 `MAVLink_rc_channels_raw_message.__init__` -/
def init35 : InitDef where
  cls := "MAVLink_rc_channels_raw_message"
  msg := msg35
  params := ["time_boot_ms", "port", "chan1_raw", "chan2_raw", "chan3_raw", "chan4_raw", "chan5_raw", "chan6_raw", "chan7_raw", "chan8_raw", "rssi"]
  assigns := [("time_boot_ms", "time_boot_ms"), ("port", "port"), ("chan1_raw", "chan1_raw"), ("chan2_raw", "chan2_raw"), ("chan3_raw", "chan3_raw"), ("chan4_raw", "chan4_raw"), ("chan5_raw", "chan5_raw"), ("chan6_raw", "chan6_raw"), ("chan7_raw", "chan7_raw"), ("chan8_raw", "chan8_raw"), ("rssi", "rssi")]

/-- HC_dialect.py:3189-3203 `MAVLink_servo_output_raw_message.__init__` -/
def init36 : InitDef where
  cls := "MAVLink_servo_output_raw_message"
  msg := msg36
  params := ["time_usec", "port", "servo1_raw", "servo2_raw", "servo3_raw", "servo4_raw", "servo5_raw", "servo6_raw", "servo7_raw", "servo8_raw"]
  assigns := [("time_usec", "time_usec"), ("port", "port"), ("servo1_raw", "servo1_raw"), ("servo2_raw", "servo2_raw"), ("servo3_raw", "servo3_raw"), ("servo4_raw", "servo4_raw"), ("servo5_raw", "servo5_raw"), ("servo6_raw", "servo6_raw"), ("servo7_raw", "servo7_raw"), ("servo8_raw", "servo8_raw")]

/-- HC_dialect.py:3233-3241 `MAVLink_mission_request_partial_list_message.__init__` -/
def init37 : InitDef where
  cls := "MAVLink_mission_request_partial_list_message"
  msg := msg37
  params := ["target_system", "target_component", "start_index", "end_index"]
  assigns := [("target_system", "target_system"), ("target_component", "target_component"), ("start_index", "start_index"), ("end_index", "end_index")]

/-- HC_dialect.py:3271-3279 `MAVLink_mission_write_partial_list_message.__init__` -/
def init38 : InitDef where
  cls := "MAVLink_mission_write_partial_list_message"
  msg := msg38
  params := ["target_system", "target_component", "start_index", "end_index"]
  assigns := [("target_system", "target_system"), ("target_component", "target_component"), ("start_index", "start_index"), ("end_index", "end_index")]

/-- HC_dialect.py:3312-3330 `MAVLink_mission_item_message.__init__` -/
def init39 : InitDef where
  cls := "MAVLink_mission_item_message"
  msg := msg39
  params := ["target_system", "target_component", "seq", "frame", "command", "current", "autocontinue", "param1", "param2", "param3", "param4", "x", "y", "z"]
  assigns := [("target_system", "target_system"), ("target_component", "target_component"), ("seq", "seq"), ("frame", "frame"), ("command", "command"), ("current", "current"), ("autocontinue", "autocontinue"), ("param1", "param1"), ("param2", "param2"), ("param3", "param3"), ("param4", "param4"), ("x", "x"), ("y", "y"), ("z", "z")]

/-- HC_dialect.py:3360-3367 `MAVLink_mission_request_message.__init__` -/
def init40 : InitDef where
  cls := "MAVLink_mission_request_message"
  msg := msg40
  params := ["target_system", "target_component", "seq"]
  assigns := [("target_system", "target_system"), ("target_component", "target_component"), ("seq", "seq")]

/-- HC_dialect.py:3397-3404 `MAVLink_mission_set_current_message.__init__` -/
def init41 : InitDef where
  cls := "MAVLink_mission_set_current_message"
  msg := msg41
  params := ["target_system", "target_component", "seq"]
  assigns := [("target_system", "target_system"), ("target_component", "target_component"), ("seq", "seq")]

/-- HC_dialect.py:3433-3438 `MAVLink_mission_current_message.__init__` -/
def init42 : InitDef where
  cls := "MAVLink_mission_current_message"
  msg := msg42
  params := ["seq"]
  assigns := [("seq", "seq")]

/-- HC_dialect.py:3466-3472 `MAVLink_mission_request_list_message.__init__` -/
def init43 : InitDef where
  cls := "MAVLink_mission_request_list_message"
  msg := msg43
  params := ["target_system", "target_component"]
  assigns := [("target_system", "target_system"), ("target_component", "target_component")]

/-- HC_dialect.py:3502-3509 `MAVLink_mission_count_message.__init__` -/
def init44 : InitDef where
  cls := "MAVLink_mission_count_message"
  msg := msg44
  params := ["target_system", "target_component", "count"]
  assigns := [("target_system", "target_system"), ("target_component", "target_component"), ("count", "count")]

/-- HC_dialect.py:3536-3542 `MAVLink_mission_clear_all_message.__init__` -/
def init45 : InitDef where
  cls := "MAVLink_mission_clear_all_message"
  msg := msg45
  params := ["target_system", "target_component"]
  assigns := [("target_system", "target_system"), ("target_component", "target_component")]

/-- HC_dialect.py:3571-3576 `MAVLink_mission_item_reached_message.__init__` -/
def init46 : InitDef where
  cls := "MAVLink_mission_item_reached_message"
  msg := msg46
  params := ["seq"]
  assigns := [("seq", "seq")]

/-- HC_dialect.py:3605-3612 `MAVLink_mission_ack_message.__init__` -/
def init47 : InitDef where
  cls := "MAVLink_mission_ack_message"
  msg := msg47
  params := ["target_system", "target_component", "type"]
  assigns := [("target_system", "target_system"), ("target_component", "target_component"), ("type", "type")]

/-- HC_dialect.py:3643-3651 `MAVLink_set_gps_global_origin_message.__init__` -/
def init48 : InitDef where
  cls := "MAVLink_set_gps_global_origin_message"
  msg := msg48
  params := ["target_system", "latitude", "longitude", "altitude"]
  assigns := [("target_system", "target_system"), ("latitude", "latitude"), ("longitude", "longitude"), ("altitude", "altitude")]

/-- HC_dialect.py:3679-3686 `MAVLink_gps_global_origin_message.__init__` -/
def init49 : InitDef where
  cls := "MAVLink_gps_global_origin_message"
  msg := msg49
  params := ["latitude", "longitude", "altitude"]
  assigns := [("latitude", "latitude"), ("longitude", "longitude"), ("altitude", "altitude")]

/-- HC_dialect.py:3714-3727 `MAVLink_param_map_rc_message.__init__` -/
def init50 : InitDef where
  cls := "MAVLink_param_map_rc_message"
  msg := msg50
  params := ["target_system", "target_component", "param_id", "param_index", "parameter_rc_channel_index", "param_value0", "scale", "param_value_min", "param_value_max"]
  assigns := [("target_system", "target_system"), ("target_component", "target_component"), ("param_id", "param_id"), ("param_index", "param_index"), ("parameter_rc_channel_index", "parameter_rc_channel_index"), ("param_value0", "param_value0"), ("scale", "scale"), ("param_value_min", "param_value_min"), ("param_value_max", "param_value_max")]

/-- HC_dialect.py:3757-3770 `MAVLink_safety_set_allowed_area_message.__init__` -/
def init54 : InitDef where
  cls := "MAVLink_safety_set_allowed_area_message"
  msg := msg54
  params := ["target_system", "target_component", "frame", "p1x", "p1y", "p1z", "p2x", "p2y", "p2z"]
  assigns := [("target_system", "target_system"), ("target_component", "target_component"), ("frame", "frame"), ("p1x", "p1x"), ("p1y", "p1y"), ("p1z", "p1z"), ("p2x", "p2x"), ("p2y", "p2y"), ("p2z", "p2z")]

/-- HC_dialect.py:3797-3808 `MAVLink_safety_allowed_area_message.__init__` -/
def init55 : InitDef where
  cls := "MAVLink_safety_allowed_area_message"
  msg := msg55
  params := ["frame", "p1x", "p1y", "p1z", "p2x", "p2y", "p2z"]
  assigns := [("frame", "frame"), ("p1x", "p1x"), ("p1y", "p1y"), ("p1z", "p1z"), ("p2x", "p2x"), ("p2y", "p2y"), ("p2z", "p2z")]

/-- HC_dialect.py:3838-3848 `MAVLink_attitude_quaternion_cov_message.__init__` -/
def init61 : InitDef where
  cls := "MAVLink_attitude_quaternion_cov_message"
  msg := msg61
  params := ["time_boot_ms", "q", "rollspeed", "pitchspeed", "yawspeed", "covariance"]
  assigns := [("time_boot_ms", "time_boot_ms"), ("q", "q"), ("rollspeed", "rollspeed"), ("pitchspeed", "pitchspeed"), ("yawspeed", "yawspeed"), ("covariance", "covariance")]

/-- HC_dialect.py:3878-3890 `MAVLink_nav_controller_output_message.__init__` -/
def init62 : InitDef where
  cls := "MAVLink_nav_controller_output_message"
  msg := msg62
  params := ["nav_roll", "nav_pitch", "nav_bearing", "target_bearing", "wp_dist", "alt_error", "aspd_error", "xtrack_error"]
  assigns := [("nav_roll", "nav_roll"), ("nav_pitch", "nav_pitch"), ("nav_bearing", "nav_bearing"), ("target_bearing", "target_bearing"), ("wp_dist", "wp_dist"), ("alt_error", "alt_error"), ("aspd_error", "aspd_error"), ("xtrack_error", "xtrack_error")]

/-- HC_dialect.py:3924-3939 `MAVLink_global_position_int_cov_message.__init__` -/
def init63 : InitDef where
  cls := "MAVLink_global_position_int_cov_message"
  msg := msg63
  params := ["time_boot_ms", "time_utc", "estimator_type", "lat", "lon", "alt", "relative_alt", "vx", "vy", "vz", "covariance"]
  assigns := [("time_boot_ms", "time_boot_ms"), ("time_utc", "time_utc"), ("estimator_type", "estimator_type"), ("lat", "lat"), ("lon", "lon"), ("alt", "alt"), ("relative_alt", "relative_alt"), ("vx", "vx"), ("vy", "vy"), ("vz", "vz"), ("covariance", "covariance")]

/-- HC_dialect.py:3968-3985 `MAVLink_local_position_ned_cov_message.__init__` -/
def init64 : InitDef where
  cls := "MAVLink_local_position_ned_cov_message"
  msg := msg64
  params := ["time_boot_ms", "time_utc", "estimator_type", "x", "y", "z", "vx", "vy", "vz", "ax", "ay", "az", "covariance"]
  assigns := [("time_boot_ms", "time_boot_ms"), ("time_utc", "time_utc"), ("estimator_type", "estimator_type"), ("x", "x"), ("y", "y"), ("z", "z"), ("vx", "vx"), ("vy", "vy"), ("vz", "vz"), ("ax", "ax"), ("ay", "ay"), ("az", "az"), ("covariance", "covariance")]

/-- HC_dialect.py:4015-4040 `MAVLink_rc_channels_message.__init__` -/
def init65 : InitDef where
  cls := "MAVLink_rc_channels_message"
  msg := msg65
  params := ["time_boot_ms", "chancount", "chan1_raw", "chan2_raw", "chan3_raw", "chan4_raw", "chan5_raw", "chan6_raw", "chan7_raw", "chan8_raw", "chan9_raw", "chan10_raw", "chan11_raw", "chan12_raw", "chan13_raw", "chan14_raw", "chan15_raw", "chan16_raw", "chan17_raw", "chan18_raw", "rssi"]
  assigns := [("time_boot_ms", "time_boot_ms"), ("chancount", "chancount"), ("chan1_raw", "chan1_raw"), ("chan2_raw", "chan2_raw"), ("chan3_raw", "chan3_raw"), ("chan4_raw", "chan4_raw"), ("chan5_raw", "chan5_raw"), ("chan6_raw", "chan6_raw"), ("chan7_raw", "chan7_raw"), ("chan8_raw", "chan8_raw"), ("chan9_raw", "chan9_raw"), ("chan10_raw", "chan10_raw"), ("chan11_raw", "chan11_raw"), ("chan12_raw", "chan12_raw"), ("chan13_raw", "chan13_raw"), ("chan14_raw", "chan14_raw"), ("chan15_raw", "chan15_raw"), ("chan16_raw", "chan16_raw"), ("chan17_raw", "chan17_raw"), ("chan18_raw", "chan18_raw"), ("rssi", "rssi")]

/-- HC_dialect.py:4068-4077 `MAVLink_request_data_stream_message.__init__` -/
def init66 : InitDef where
  cls := "MAVLink_request_data_stream_message"
  msg := msg66
  params := ["target_system", "target_component", "req_stream_id", "req_message_rate", "start_stop"]
  assigns := [("target_system", "target_system"), ("target_component", "target_component"), ("req_stream_id", "req_stream_id"), ("req_message_rate", "req_message_rate"), ("start_stop", "start_stop")]

/-- HC_dialect.py:4104-4111 `MAVLink_data_stream_message.__init__` -/
def init67 : InitDef where
  cls := "MAVLink_data_stream_message"
  msg := msg67
  params := ["stream_id", "message_rate", "on_off"]
  assigns := [("stream_id", "stream_id"), ("message_rate", "message_rate"), ("on_off", "on_off")]

/-- HC_dialect.py:4141-4151 `MAVLink_manual_control_message.__init__` -/
def init69 : InitDef where
  cls := "MAVLink_manual_control_message"
  msg := msg69
  params := ["target", "x", "y", "z", "r", "buttons"]
  assigns := [("target", "target"), ("x", "x"), ("y", "y"), ("z", "z"), ("r", "r"), ("buttons", "buttons")]

/-- HC_dialect.py:4184-4198 `MAVLink_rc_channels_override_message.__init__` -/
def init70 : InitDef where
  cls := "MAVLink_rc_channels_override_message"
  msg := msg70
  params := ["target_system", "target_component", "chan1_raw", "chan2_raw", "chan3_raw", "chan4_raw", "chan5_raw", "chan6_raw", "chan7_raw", "chan8_raw"]
  assigns := [("target_system", "target_system"), ("target_component", "target_component"), ("chan1_raw", "chan1_raw"), ("chan2_raw", "chan2_raw"), ("chan3_raw", "chan3_raw"), ("chan4_raw", "chan4_raw"), ("chan5_raw", "chan5_raw"), ("chan6_raw", "chan6_raw"), ("chan7_raw", "chan7_raw"), ("chan8_raw", "chan8_raw")]

/-- HC_dialect.py:4231-4249 `MAVLink_mission_item_int_message.__init__` -/
def init73 : InitDef where
  cls := "MAVLink_mission_item_int_message"
  msg := msg73
  params := ["target_system", "target_component", "seq", "frame", "command", "current", "autocontinue", "param1", "param2", "param3", "param4", "x", "y", "z"]
  assigns := [("target_system", "target_system"), ("target_component", "target_component"), ("seq", "seq"), ("frame", "frame"), ("command", "command"), ("current", "current"), ("autocontinue", "autocontinue"), ("param1", "param1"), ("param2", "param2"), ("param3", "param3"), ("param4", "param4"), ("x", "x"), ("y", "y"), ("z", "z")]

/-- HC_dialect.py:4276-4286 `MAVLink_vfr_hud_message.__init__` -/
def init74 : InitDef where
  cls := "MAVLink_vfr_hud_message"
  msg := msg74
  params := ["airspeed", "groundspeed", "heading", "throttle", "alt", "climb"]
  assigns := [("airspeed", "airspeed"), ("groundspeed", "groundspeed"), ("heading", "heading"), ("throttle", "throttle"), ("alt", "alt"), ("climb", "climb")]

/-- HC_dialect.py:4314-4331 `MAVLink_command_int_message.__init__` -/
def init75 : InitDef where
  cls := "MAVLink_command_int_message"
  msg := msg75
  params := ["target_system", "target_component", "frame", "command", "current", "autocontinue", "param1", "param2", "param3", "param4", "x", "y", "z"]
  assigns := [("target_system", "target_system"), ("target_component", "target_component"), ("frame", "frame"), ("command", "command"), ("current", "current"), ("autocontinue", "autocontinue"), ("param1", "param1"), ("param2", "param2"), ("param3", "param3"), ("param4", "param4"), ("x", "x"), ("y", "y"), ("z", "z")]

/-- HC_dialect.py:4358-4373 `MAVLink_command_long_message.__init__` -/
def init76 : InitDef where
  cls := "MAVLink_command_long_message"
  msg := msg76
  params := ["target_system", "target_component", "command", "confirmation", "param1", "param2", "param3", "param4", "param5", "param6", "param7"]
  assigns := [("target_system", "target_system"), ("target_component", "target_component"), ("command", "command"), ("confirmation", "confirmation"), ("param1", "param1"), ("param2", "param2"), ("param3", "param3"), ("param4", "param4"), ("param5", "param5"), ("param6", "param6"), ("param7", "param7")]

/-- HC_dialect.py:4401-4407 `MAVLink_command_ack_message.__init__` -/
def init77 : InitDef where
  cls := "MAVLink_command_ack_message"
  msg := msg77
  params := ["command", "result"]
  assigns := [("command", "command"), ("result", "result")]

/-- HC_dialect.py:4434-4445 `MAVLink_manual_setpoint_message.__init__` -/
def init81 : InitDef where
  cls := "MAVLink_manual_setpoint_message"
  msg := msg81
  params := ["time_boot_ms", "roll", "pitch", "yaw", "thrust", "mode_switch", "manual_override_switch"]
  assigns := [("time_boot_ms", "time_boot_ms"), ("roll", "roll"), ("pitch", "pitch"), ("yaw", "yaw"), ("thrust", "thrust"), ("mode_switch", "mode_switch"), ("manual_override_switch", "manual_override_switch")]

/-- HC_dialect.py:4472-4485 `MAVLink_set_attitude_target_message.__init__` -/
def init82 : InitDef where
  cls := "MAVLink_set_attitude_target_message"
  msg := msg82
  params := ["time_boot_ms", "target_system", "target_component", "type_mask", "q", "body_roll_rate", "body_pitch_rate", "body_yaw_rate", "thrust"]
  assigns := [("time_boot_ms", "time_boot_ms"), ("target_system", "target_system"), ("target_component", "target_component"), ("type_mask", "type_mask"), ("q", "q"), ("body_roll_rate", "body_roll_rate"), ("body_pitch_rate", "body_pitch_rate"), ("body_yaw_rate", "body_yaw_rate"), ("thrust", "thrust")]

/-- HC_dialect.py:4512-4523 `MAVLink_attitude_target_message.__init__` -/
def init83 : InitDef where
  cls := "MAVLink_attitude_target_message"
  msg := msg83
  params := ["time_boot_ms", "type_mask", "q", "body_roll_rate", "body_pitch_rate", "body_yaw_rate", "thrust"]
  assigns := [("time_boot_ms", "time_boot_ms"), ("type_mask", "type_mask"), ("q", "q"), ("body_roll_rate", "body_roll_rate"), ("body_pitch_rate", "body_pitch_rate"), ("body_yaw_rate", "body_yaw_rate"), ("thrust", "thrust")]

/-- HC_dialect.py:4551-4571 `MAVLink_set_position_target_local_ned_message.__init__` -/
def init84 : InitDef where
  cls := "MAVLink_set_position_target_local_ned_message"
  msg := msg84
  params := ["time_boot_ms", "target_system", "target_component", "coordinate_frame", "type_mask", "x", "y", "z", "vx", "vy", "vz", "afx", "afy", "afz", "yaw", "yaw_rate"]
  assigns := [("time_boot_ms", "time_boot_ms"), ("target_system", "target_system"), ("target_component", "target_component"), ("coordinate_frame", "coordinate_frame"), ("type_mask", "type_mask"), ("x", "x"), ("y", "y"), ("z", "z"), ("vx", "vx"), ("vy", "vy"), ("vz", "vz"), ("afx", "afx"), ("afy", "afy"), ("afz", "afz"), ("yaw", "yaw"), ("yaw_rate", "yaw_rate")]

/-- HC_dialect.py:4599-4617 `MAVLink_position_target_local_ned_message.__init__` -/
def init85 : InitDef where
  cls := "MAVLink_position_target_local_ned_message"
  msg := msg85
  params := ["time_boot_ms", "coordinate_frame", "type_mask", "x", "y", "z", "vx", "vy", "vz", "afx", "afy", "afz", "yaw", "yaw_rate"]
  assigns := [("time_boot_ms", "time_boot_ms"), ("coordinate_frame", "coordinate_frame"), ("type_mask", "type_mask"), ("x", "x"), ("y", "y"), ("z", "z"), ("vx", "vx"), ("vy", "vy"), ("vz", "vz"), ("afx", "afx"), ("afy", "afy"), ("afz", "afz"), ("yaw", "yaw"), ("yaw_rate", "yaw_rate")]

/-- HC_dialect.py:4645-4665 `MAVLink_set_position_target_global_int_message.__init__` -/
def init86 : InitDef where
  cls := "MAVLink_set_position_target_global_int_message"
  msg := msg86
  params := ["time_boot_ms", "target_system", "target_component", "coordinate_frame", "type_mask", "lat_int", "lon_int", "alt", "vx", "vy", "vz", "afx", "afy", "afz", "yaw", "yaw_rate"]
  assigns := [("time_boot_ms", "time_boot_ms"), ("target_system", "target_system"), ("target_component", "target_component"), ("coordinate_frame", "coordinate_frame"), ("type_mask", "type_mask"), ("lat_int", "lat_int"), ("lon_int", "lon_int"), ("alt", "alt"), ("vx", "vx"), ("vy", "vy"), ("vz", "vz"), ("afx", "afx"), ("afy", "afy"), ("afz", "afz"), ("yaw", "yaw"), ("yaw_rate", "yaw_rate")]

/-- HC_dialect.py:4693-4711 `MAVLink_position_target_global_int_message.__init__` -/
def init87 : InitDef where
  cls := "MAVLink_position_target_global_int_message"
  msg := msg87
  params := ["time_boot_ms", "coordinate_frame", "type_mask", "lat_int", "lon_int", "alt", "vx", "vy", "vz", "afx", "afy", "afz", "yaw", "yaw_rate"]
  assigns := [("time_boot_ms", "time_boot_ms"), ("coordinate_frame", "coordinate_frame"), ("type_mask", "type_mask"), ("lat_int", "lat_int"), ("lon_int", "lon_int"), ("alt", "alt"), ("vx", "vx"), ("vy", "vy"), ("vz", "vz"), ("afx", "afx"), ("afy", "afy"), ("afz", "afz"), ("yaw", "yaw"), ("yaw_rate", "yaw_rate")]

/-- HC_dialect.py:4741-4752 `MAVLink_local_position_ned_system_global_offset_message.__init__` -/
def init89 : InitDef where
  cls := "MAVLink_local_position_ned_system_global_offset_message"
  msg := msg89
  params := ["time_boot_ms", "x", "y", "z", "roll", "pitch", "yaw"]
  assigns := [("time_boot_ms", "time_boot_ms"), ("x", "x"), ("y", "y"), ("z", "z"), ("roll", "roll"), ("pitch", "pitch"), ("yaw", "yaw")]

/-- HC_dialect.py:4783-4803 `MAVLink_hil_state_message.__init__` -/
def init90 : InitDef where
  cls := "MAVLink_hil_state_message"
  msg := msg90
  params := ["time_usec", "roll", "pitch", "yaw", "rollspeed", "pitchspeed", "yawspeed", "lat", "lon", "alt", "vx", "vy", "vz", "xacc", "yacc", "zacc"]
  assigns := [("time_usec", "time_usec"), ("roll", "roll"), ("pitch", "pitch"), ("yaw", "yaw"), ("rollspeed", "rollspeed"), ("pitchspeed", "pitchspeed"), ("yawspeed", "yawspeed"), ("lat", "lat"), ("lon", "lon"), ("alt", "alt"), ("vx", "vx"), ("vy", "vy"), ("vz", "vz"), ("xacc", "xacc"), ("yacc", "yacc"), ("zacc", "zacc")]

/-- HC_dialect.py:4831-4846 `MAVLink_hil_controls_message.__init__` -/
def init91 : InitDef where
  cls := "MAVLink_hil_controls_message"
  msg := msg91
  params := ["time_usec", "roll_ailerons", "pitch_elevator", "yaw_rudder", "throttle", "aux1", "aux2", "aux3", "aux4", "mode", "nav_mode"]
  assigns := [("time_usec", "time_usec"), ("roll_ailerons", "roll_ailerons"), ("pitch_elevator", "pitch_elevator"), ("yaw_rudder", "yaw_rudder"), ("throttle", "throttle"), ("aux1", "aux1"), ("aux2", "aux2"), ("aux3", "aux3"), ("aux4", "aux4"), ("mode", "mode"), ("nav_mode", "nav_mode")]

/-- HC_dialect.py:4876-4894 `MAVLink_hil_rc_inputs_raw_message.__init__` -/
def init92 : InitDef where
  cls := "MAVLink_hil_rc_inputs_raw_message"
  msg := msg92
  params := ["time_usec", "chan1_raw", "chan2_raw", "chan3_raw", "chan4_raw", "chan5_raw", "chan6_raw", "chan7_raw", "chan8_raw", "chan9_raw", "chan10_raw", "chan11_raw", "chan12_raw", "rssi"]
  assigns := [("time_usec", "time_usec"), ("chan1_raw", "chan1_raw"), ("chan2_raw", "chan2_raw"), ("chan3_raw", "chan3_raw"), ("chan4_raw", "chan4_raw"), ("chan5_raw", "chan5_raw"), ("chan6_raw", "chan6_raw"), ("chan7_raw", "chan7_raw"), ("chan8_raw", "chan8_raw"), ("chan9_raw", "chan9_raw"), ("chan10_raw", "chan10_raw"), ("chan11_raw", "chan11_raw"), ("chan12_raw", "chan12_raw"), ("rssi", "rssi")]

/-- HC_dialect.py:4921-4933 `MAVLink_optical_flow_message.__init__` -/
def init100 : InitDef where
  cls := "MAVLink_optical_flow_message"
  msg := msg100
  params := ["time_usec", "sensor_id", "flow_x", "flow_y", "flow_comp_m_x", "flow_comp_m_y", "quality", "ground_distance"]
  assigns := [("time_usec", "time_usec"), ("sensor_id", "sensor_id"), ("flow_x", "flow_x"), ("flow_y", "flow_y"), ("flow_comp_m_x", "flow_comp_m_x"), ("flow_comp_m_y", "flow_comp_m_y"), ("quality", "quality"), ("ground_distance", "ground_distance")]

/-- HC_dialect.py:4960-4971 `MAVLink_global_vision_position_estimate_message.__init__` -/
def init101 : InitDef where
  cls := "MAVLink_global_vision_position_estimate_message"
  msg := msg101
  params := ["usec", "x", "y", "z", "roll", "pitch", "yaw"]
  assigns := [("usec", "usec"), ("x", "x"), ("y", "y"), ("z", "z"), ("roll", "roll"), ("pitch", "pitch"), ("yaw", "yaw")]

/-- HC_dialect.py:4998-5009 `MAVLink_vision_position_estimate_message.__init__` -/
def init102 : InitDef where
  cls := "MAVLink_vision_position_estimate_message"
  msg := msg102
  params := ["usec", "x", "y", "z", "roll", "pitch", "yaw"]
  assigns := [("usec", "usec"), ("x", "x"), ("y", "y"), ("z", "z"), ("roll", "roll"), ("pitch", "pitch"), ("yaw", "yaw")]

/-- HC_dialect.py:5036-5044 `MAVLink_vision_speed_estimate_message.__init__` -/
def init103 : InitDef where
  cls := "MAVLink_vision_speed_estimate_message"
  msg := msg103
  params := ["usec", "x", "y", "z"]
  assigns := [("usec", "usec"), ("x", "x"), ("y", "y"), ("z", "z")]

/-- HC_dialect.py:5071-5082 `MAVLink_vicon_position_estimate_message.__init__` -/
def init104 : InitDef where
  cls := "MAVLink_vicon_position_estimate_message"
  msg := msg104
  params := ["usec", "x", "y", "z", "roll", "pitch", "yaw"]
  assigns := [("usec", "usec"), ("x", "x"), ("y", "y"), ("z", "z"), ("roll", "roll"), ("pitch", "pitch"), ("yaw", "yaw")]

/-- HC_dialect.py:5109-5128 `MAVLink_highres_imu_message.__init__` -/
def init105 : InitDef where
  cls := "MAVLink_highres_imu_message"
  msg := msg105
  params := ["time_usec", "xacc", "yacc", "zacc", "xgyro", "ygyro", "zgyro", "xmag", "ymag", "zmag", "abs_pressure", "diff_pressure", "pressure_alt", "temperature", "fields_updated"]
  assigns := [("time_usec", "time_usec"), ("xacc", "xacc"), ("yacc", "yacc"), ("zacc", "zacc"), ("xgyro", "xgyro"), ("ygyro", "ygyro"), ("zgyro", "zgyro"), ("xmag", "xmag"), ("ymag", "ymag"), ("zmag", "zmag"), ("abs_pressure", "abs_pressure"), ("diff_pressure", "diff_pressure"), ("pressure_alt", "pressure_alt"), ("temperature", "temperature"), ("fields_updated", "fields_updated")]

/-- HC_dialect.py:5156-5172 `MAVLink_optical_flow_rad_message.__init__` -/
def init106 : InitDef where
  cls := "MAVLink_optical_flow_rad_message"
  msg := msg106
  params := ["time_usec", "sensor_id", "integration_time_us", "integrated_x", "integrated_y", "integrated_xgyro", "integrated_ygyro", "integrated_zgyro", "temperature", "quality", "time_delta_distance_us", "distance"]
  assigns := [("time_usec", "time_usec"), ("sensor_id", "sensor_id"), ("integration_time_us", "integration_time_us"), ("integrated_x", "integrated_x"), ("integrated_y", "integrated_y"), ("integrated_xgyro", "integrated_xgyro"), ("integrated_ygyro", "integrated_ygyro"), ("integrated_zgyro", "integrated_zgyro"), ("temperature", "temperature"), ("quality", "quality"), ("time_delta_distance_us", "time_delta_distance_us"), ("distance", "distance")]

/-- HC_dialect.py:5199-5218 `MAVLink_hil_sensor_message.__init__` -/
def init107 : InitDef where
  cls := "MAVLink_hil_sensor_message"
  msg := msg107
  params := ["time_usec", "xacc", "yacc", "zacc", "xgyro", "ygyro", "zgyro", "xmag", "ymag", "zmag", "abs_pressure", "diff_pressure", "pressure_alt", "temperature", "fields_updated"]
  assigns := [("time_usec", "time_usec"), ("xacc", "xacc"), ("yacc", "yacc"), ("zacc", "zacc"), ("xgyro", "xgyro"), ("ygyro", "ygyro"), ("zgyro", "zgyro"), ("xmag", "xmag"), ("ymag", "ymag"), ("zmag", "zmag"), ("abs_pressure", "abs_pressure"), ("diff_pressure", "diff_pressure"), ("pressure_alt", "pressure_alt"), ("temperature", "temperature"), ("fields_updated", "fields_updated")]

/-- HC_dialect.py:5245-5270 `MAVLink_sim_state_message.__init__` -/
def init108 : InitDef where
  cls := "MAVLink_sim_state_message"
  msg := msg108
  params := ["q1", "q2", "q3", "q4", "roll", "pitch", "yaw", "xacc", "yacc", "zacc", "xgyro", "ygyro", "zgyro", "lat", "lon", "alt", "std_dev_horz", "std_dev_vert", "vn", "ve", "vd"]
  assigns := [("q1", "q1"), ("q2", "q2"), ("q3", "q3"), ("q4", "q4"), ("roll", "roll"), ("pitch", "pitch"), ("yaw", "yaw"), ("xacc", "xacc"), ("yacc", "yacc"), ("zacc", "zacc"), ("xgyro", "xgyro"), ("ygyro", "ygyro"), ("zgyro", "zgyro"), ("lat", "lat"), ("lon", "lon"), ("alt", "alt"), ("std_dev_horz", "std_dev_horz"), ("std_dev_vert", "std_dev_vert"), ("vn", "vn"), ("ve", "ve"), ("vd", "vd")]

/-- HC_dialect.py:5297-5308 `MAVLink_radio_status_message.__init__` -/
def init109 : InitDef where
  cls := "MAVLink_radio_status_message"
  msg := msg109
  params := ["rssi", "remrssi", "txbuf", "noise", "remnoise", "rxerrors", "fixed"]
  assigns := [("rssi", "rssi"), ("remrssi", "remrssi"), ("txbuf", "txbuf"), ("noise", "noise"), ("remnoise", "remnoise"), ("rxerrors", "rxerrors"), ("fixed", "fixed")]

/-- HC_dialect.py:5335-5343 `MAVLink_file_transfer_protocol_message.__init__` -/
def init110 : InitDef where
  cls := "MAVLink_file_transfer_protocol_message"
  msg := msg110
  params := ["target_network", "target_system", "target_component", "payload"]
  assigns := [("target_network", "target_network"), ("target_system", "target_system"), ("target_component", "target_component"), ("payload", "payload")]

/-- HC_dialect.py:5370-5376 `MAVLink_timesync_message.__init__` -/
def init111 : InitDef where
  cls := "MAVLink_timesync_message"
  msg := msg111
  params := ["tc1", "ts1"]
  assigns := [("tc1", "tc1"), ("ts1", "ts1")]

/-- HC_dialect.py:5403-5409 `MAVLink_camera_trigger_message.__init__` -/
def init112 : InitDef where
  cls := "MAVLink_camera_trigger_message"
  msg := msg112
  params := ["time_usec", "seq"]
  assigns := [("time_usec", "time_usec"), ("seq", "seq")]

/-- HC_dialect.py:5440-5457 `MAVLink_hil_gps_message.__init__` -/
def init113 : InitDef where
  cls := "MAVLink_hil_gps_message"
  msg := msg113
  params := ["time_usec", "fix_type", "lat", "lon", "alt", "eph", "epv", "vel", "vn", "ve", "vd", "cog", "satellites_visible"]
  assigns := [("time_usec", "time_usec"), ("fix_type", "fix_type"), ("lat", "lat"), ("lon", "lon"), ("alt", "alt"), ("eph", "eph"), ("epv", "epv"), ("vel", "vel"), ("vn", "vn"), ("ve", "ve"), ("vd", "vd"), ("cog", "cog"), ("satellites_visible", "satellites_visible")]

/-- HC_dialect.py:5485-5501 `MAVLink_hil_optical_flow_message.__init__` -/
def init114 : InitDef where
  cls := "MAVLink_hil_optical_flow_message"
  msg := msg114
  params := ["time_usec", "sensor_id", "integration_time_us", "integrated_x", "integrated_y", "integrated_xgyro", "integrated_ygyro", "integrated_zgyro", "temperature", "quality", "time_delta_distance_us", "distance"]
  assigns := [("time_usec", "time_usec"), ("sensor_id", "sensor_id"), ("integration_time_us", "integration_time_us"), ("integrated_x", "integrated_x"), ("integrated_y", "integrated_y"), ("integrated_xgyro", "integrated_xgyro"), ("integrated_ygyro", "integrated_ygyro"), ("integrated_zgyro", "integrated_zgyro"), ("temperature", "temperature"), ("quality", "quality"), ("time_delta_distance_us", "time_delta_distance_us"), ("distance", "distance")]

/-- HC_dialect.py:5531-5551 `MAVLink_hil_state_quaternion_message.__init__` -/
def init115 : InitDef where
  cls := "MAVLink_hil_state_quaternion_message"
  msg := msg115
  params := ["time_usec", "attitude_quaternion", "rollspeed", "pitchspeed", "yawspeed", "lat", "lon", "alt", "vx", "vy", "vz", "ind_airspeed", "true_airspeed", "xacc", "yacc", "zacc"]
  assigns := [("time_usec", "time_usec"), ("attitude_quaternion", "attitude_quaternion"), ("rollspeed", "rollspeed"), ("pitchspeed", "pitchspeed"), ("yawspeed", "yawspeed"), ("lat", "lat"), ("lon", "lon"), ("alt", "alt"), ("vx", "vx"), ("vy", "vy"), ("vz", "vz"), ("ind_airspeed", "ind_airspeed"), ("true_airspeed", "true_airspeed"), ("xacc", "xacc"), ("yacc", "yacc"), ("zacc", "zacc")]

/-- HC_dialect.py:5580-5594 `MAVLink_scaled_imu2_message.__init__` -/
def init116 : InitDef where
  cls := "MAVLink_scaled_imu2_message"
  msg := msg116
  params := ["time_boot_ms", "xacc", "yacc", "zacc", "xgyro", "ygyro", "zgyro", "xmag", "ymag", "zmag"]
  assigns := [("time_boot_ms", "time_boot_ms"), ("xacc", "xacc"), ("yacc", "yacc"), ("zacc", "zacc"), ("xgyro", "xgyro"), ("ygyro", "ygyro"), ("zgyro", "zgyro"), ("xmag", "xmag"), ("ymag", "ymag"), ("zmag", "zmag")]

/-- HC_dialect.py:5622-5630 `MAVLink_log_request_list_message.__init__` -/
def init117 : InitDef where
  cls := "MAVLink_log_request_list_message"
  msg := msg117
  params := ["target_system", "target_component", "start", "end"]
  assigns := [("target_system", "target_system"), ("target_component", "target_component"), ("start", "start"), ("end", "end")]

/-- HC_dialect.py:5657-5666 `MAVLink_log_entry_message.__init__` -/
def init118 : InitDef where
  cls := "MAVLink_log_entry_message"
  msg := msg118
  params := ["id", "num_logs", "last_log_num", "time_utc", "size"]
  assigns := [("id", "id"), ("num_logs", "num_logs"), ("last_log_num", "last_log_num"), ("time_utc", "time_utc"), ("size", "size")]

/-- HC_dialect.py:5693-5702 `MAVLink_log_request_data_message.__init__` -/
def init119 : InitDef where
  cls := "MAVLink_log_request_data_message"
  msg := msg119
  params := ["target_system", "target_component", "id", "ofs", "count"]
  assigns := [("target_system", "target_system"), ("target_component", "target_component"), ("id", "id"), ("ofs", "ofs"), ("count", "count")]

/-- HC_dialect.py:5729-5737 `MAVLink_log_data_message.__init__` -/
def init120 : InitDef where
  cls := "MAVLink_log_data_message"
  msg := msg120
  params := ["id", "ofs", "count", "data"]
  assigns := [("id", "id"), ("ofs", "ofs"), ("count", "count"), ("data", "data")]

/-- HC_dialect.py:5764-5770 `MAVLink_log_erase_message.__init__` -/
def init121 : InitDef where
  cls := "MAVLink_log_erase_message"
  msg := msg121
  params := ["target_system", "target_component"]
  assigns := [("target_system", "target_system"), ("target_component", "target_component")]

/-- HC_dialect.py:5797-5803 `MAVLink_log_request_end_message.__init__` -/
def init122 : InitDef where
  cls := "MAVLink_log_request_end_message"
  msg := msg122
  params := ["target_system", "target_component"]
  assigns := [("target_system", "target_system"), ("target_component", "target_component")]

/-- HC_dialect.py:5830-5838 `MAVLink_gps_inject_data_message.__init__` -/
def init123 : InitDef where
  cls := "MAVLink_gps_inject_data_message"
  msg := msg123
  params := ["target_system", "target_component", "len", "data"]
  assigns := [("target_system", "target_system"), ("target_component", "target_component"), ("len", "len"), ("data", "data")]

/-- HC_dialect.py:5866-5882 `MAVLink_gps2_raw_message.__init__` -/
def init124 : InitDef where
  cls := "MAVLink_gps2_raw_message"
  msg := msg124
  params := ["time_usec", "fix_type", "lat", "lon", "alt", "eph", "epv", "vel", "cog", "satellites_visible", "dgps_numch", "dgps_age"]
  assigns := [("time_usec", "time_usec"), ("fix_type", "fix_type"), ("lat", "lat"), ("lon", "lon"), ("alt", "alt"), ("eph", "eph"), ("epv", "epv"), ("vel", "vel"), ("cog", "cog"), ("satellites_visible", "satellites_visible"), ("dgps_numch", "dgps_numch"), ("dgps_age", "dgps_age")]

/-- HC_dialect.py:5909-5916 `MAVLink_power_status_message.__init__` -/
def init125 : InitDef where
  cls := "MAVLink_power_status_message"
  msg := msg125
  params := ["Vcc", "Vservo", "flags"]
  assigns := [("Vcc", "Vcc"), ("Vservo", "Vservo"), ("flags", "flags")]

/-- HC_dialect.py:5947-5957 `MAVLink_serial_control_message.__init__` -/
def init126 : InitDef where
  cls := "MAVLink_serial_control_message"
  msg := msg126
  params := ["device", "flags", "timeout", "baudrate", "count", "data"]
  assigns := [("device", "device"), ("flags", "flags"), ("timeout", "timeout"), ("baudrate", "baudrate"), ("count", "count"), ("data", "data")]

/-- HC_dialect.py:5985-6002 `MAVLink_gps_rtk_message.__init__` -/
def init127 : InitDef where
  cls := "MAVLink_gps_rtk_message"
  msg := msg127
  params := ["time_last_baseline_ms", "rtk_receiver_id", "wn", "tow", "rtk_health", "rtk_rate", "nsats", "baseline_coords_type", "baseline_a_mm", "baseline_b_mm", "baseline_c_mm", "accuracy", "iar_num_hypotheses"]
  assigns := [("time_last_baseline_ms", "time_last_baseline_ms"), ("rtk_receiver_id", "rtk_receiver_id"), ("wn", "wn"), ("tow", "tow"), ("rtk_health", "rtk_health"), ("rtk_rate", "rtk_rate"), ("nsats", "nsats"), ("baseline_coords_type", "baseline_coords_type"), ("baseline_a_mm", "baseline_a_mm"), ("baseline_b_mm", "baseline_b_mm"), ("baseline_c_mm", "baseline_c_mm"), ("accuracy", "accuracy"), ("iar_num_hypotheses", "iar_num_hypotheses")]

/-- HC_dialect.py:6030-6047 `MAVLink_gps2_rtk_message.__init__` -/
def init128 : InitDef where
  cls := "MAVLink_gps2_rtk_message"
  msg := msg128
  params := ["time_last_baseline_ms", "rtk_receiver_id", "wn", "tow", "rtk_health", "rtk_rate", "nsats", "baseline_coords_type", "baseline_a_mm", "baseline_b_mm", "baseline_c_mm", "accuracy", "iar_num_hypotheses"]
  assigns := [("time_last_baseline_ms", "time_last_baseline_ms"), ("rtk_receiver_id", "rtk_receiver_id"), ("wn", "wn"), ("tow", "tow"), ("rtk_health", "rtk_health"), ("rtk_rate", "rtk_rate"), ("nsats", "nsats"), ("baseline_coords_type", "baseline_coords_type"), ("baseline_a_mm", "baseline_a_mm"), ("baseline_b_mm", "baseline_b_mm"), ("baseline_c_mm", "baseline_c_mm"), ("accuracy", "accuracy"), ("iar_num_hypotheses", "iar_num_hypotheses")]

/-- HC_dialect.py:6075-6089 `MAVLink_scaled_imu3_message.__init__` -/
def init129 : InitDef where
  cls := "MAVLink_scaled_imu3_message"
  msg := msg129
  params := ["time_boot_ms", "xacc", "yacc", "zacc", "xgyro", "ygyro", "zgyro", "xmag", "ymag", "zmag"]
  assigns := [("time_boot_ms", "time_boot_ms"), ("xacc", "xacc"), ("yacc", "yacc"), ("zacc", "zacc"), ("xgyro", "xgyro"), ("ygyro", "ygyro"), ("zgyro", "zgyro"), ("xmag", "xmag"), ("ymag", "ymag"), ("zmag", "zmag")]

/-- HC_dialect.py:6116-6127 `MAVLink_data_transmission_handshake_message.__init__` -/
def init130 : InitDef where
  cls := "MAVLink_data_transmission_handshake_message"
  msg := msg130
  params := ["type", "size", "width", "height", "packets", "payload", "jpg_quality"]
  assigns := [("type", "type"), ("size", "size"), ("width", "width"), ("height", "height"), ("packets", "packets"), ("payload", "payload"), ("jpg_quality", "jpg_quality")]

/-- HC_dialect.py:6154-6160 `MAVLink_encapsulated_data_message.__init__` -/
def init131 : InitDef where
  cls := "MAVLink_encapsulated_data_message"
  msg := msg131
  params := ["seqnr", "data"]
  assigns := [("seqnr", "seqnr"), ("data", "data")]

/-- HC_dialect.py:6187-6199 `MAVLink_distance_sensor_message.__init__` -/
def init132 : InitDef where
  cls := "MAVLink_distance_sensor_message"
  msg := msg132
  params := ["time_boot_ms", "min_distance", "max_distance", "current_distance", "type", "id", "orientation", "covariance"]
  assigns := [("time_boot_ms", "time_boot_ms"), ("min_distance", "min_distance"), ("max_distance", "max_distance"), ("current_distance", "current_distance"), ("type", "type"), ("id", "id"), ("orientation", "orientation"), ("covariance", "covariance")]

/-- HC_dialect.py:6226-6234 `MAVLink_terrain_request_message.__init__` -/
def init133 : InitDef where
  cls := "MAVLink_terrain_request_message"
  msg := msg133
  params := ["lat", "lon", "grid_spacing", "mask"]
  assigns := [("lat", "lat"), ("lon", "lon"), ("grid_spacing", "grid_spacing"), ("mask", "mask")]

/-- HC_dialect.py:6262-6271 `MAVLink_terrain_data_message.__init__` -/
def init134 : InitDef where
  cls := "MAVLink_terrain_data_message"
  msg := msg134
  params := ["lat", "lon", "grid_spacing", "gridbit", "data"]
  assigns := [("lat", "lat"), ("lon", "lon"), ("grid_spacing", "grid_spacing"), ("gridbit", "gridbit"), ("data", "data")]

/-- HC_dialect.py:6300-6306 `MAVLink_terrain_check_message.__init__` -/
def init135 : InitDef where
  cls := "MAVLink_terrain_check_message"
  msg := msg135
  params := ["lat", "lon"]
  assigns := [("lat", "lat"), ("lon", "lon")]

/-- HC_dialect.py:6333-6344 `MAVLink_terrain_report_message.__init__` -/
def init136 : InitDef where
  cls := "MAVLink_terrain_report_message"
  msg := msg136
  params := ["lat", "lon", "spacing", "terrain_height", "current_height", "pending", "loaded"]
  assigns := [("lat", "lat"), ("lon", "lon"), ("spacing", "spacing"), ("terrain_height", "terrain_height"), ("current_height", "current_height"), ("pending", "pending"), ("loaded", "loaded")]

/-- HC_dialect.py:6371-6379 `MAVLink_scaled_pressure2_message.__init__` -/
def init137 : InitDef where
  cls := "MAVLink_scaled_pressure2_message"
  msg := msg137
  params := ["time_boot_ms", "press_abs", "press_diff", "temperature"]
  assigns := [("time_boot_ms", "time_boot_ms"), ("press_abs", "press_abs"), ("press_diff", "press_diff"), ("temperature", "temperature")]

/-- HC_dialect.py:6406-6415 `MAVLink_att_pos_mocap_message.__init__` -/
def init138 : InitDef where
  cls := "MAVLink_att_pos_mocap_message"
  msg := msg138
  params := ["time_usec", "q", "x", "y", "z"]
  assigns := [("time_usec", "time_usec"), ("q", "q"), ("x", "x"), ("y", "y"), ("z", "z")]

/-- HC_dialect.py:6442-6451 `MAVLink_set_actuator_control_target_message.__init__` -/
def init139 : InitDef where
  cls := "MAVLink_set_actuator_control_target_message"
  msg := msg139
  params := ["time_usec", "group_mlx", "target_system", "target_component", "controls"]
  assigns := [("time_usec", "time_usec"), ("group_mlx", "group_mlx"), ("target_system", "target_system"), ("target_component", "target_component"), ("controls", "controls")]

/-- HC_dialect.py:6478-6485 `MAVLink_actuator_control_target_message.__init__` -/
def init140 : InitDef where
  cls := "MAVLink_actuator_control_target_message"
  msg := msg140
  params := ["time_usec", "group_mlx", "controls"]
  assigns := [("time_usec", "time_usec"), ("group_mlx", "group_mlx"), ("controls", "controls")]

/-- HC_dialect.py:6512-6523 `MAVLink_altitude_message.__init__` -/
def init141 : InitDef where
  cls := "MAVLink_altitude_message"
  msg := msg141
  params := ["time_usec", "altitude_monotonic", "altitude_amsl", "altitude_local", "altitude_relative", "altitude_terrain", "bottom_clearance"]
  assigns := [("time_usec", "time_usec"), ("altitude_monotonic", "altitude_monotonic"), ("altitude_amsl", "altitude_amsl"), ("altitude_local", "altitude_local"), ("altitude_relative", "altitude_relative"), ("altitude_terrain", "altitude_terrain"), ("bottom_clearance", "bottom_clearance")]

/-- HC_dialect.py:6551-6560 `MAVLink_resource_request_message.__init__` -/
def init142 : InitDef where
  cls := "MAVLink_resource_request_message"
  msg := msg142
  params := ["request_id", "uri_type", "uri", "transfer_type", "storage"]
  assigns := [("request_id", "request_id"), ("uri_type", "uri_type"), ("uri", "uri"), ("transfer_type", "transfer_type"), ("storage", "storage")]

/-- HC_dialect.py:6587-6595 `MAVLink_scaled_pressure3_message.__init__` -/
def init143 : InitDef where
  cls := "MAVLink_scaled_pressure3_message"
  msg := msg143
  params := ["time_boot_ms", "press_abs", "press_diff", "temperature"]
  assigns := [("time_boot_ms", "time_boot_ms"), ("press_abs", "press_abs"), ("press_diff", "press_diff"), ("temperature", "temperature")]

/-- HC_dialect.py:6623-6644 `MAVLink_control_system_state_message.__init__` -/
def init146 : InitDef where
  cls := "MAVLink_control_system_state_message"
  msg := msg146
  params := ["time_usec", "x_acc", "y_acc", "z_acc", "x_vel", "y_vel", "z_vel", "x_pos", "y_pos", "z_pos", "airspeed", "vel_variance", "pos_variance", "q", "roll_rate", "pitch_rate", "yaw_rate"]
  assigns := [("time_usec", "time_usec"), ("x_acc", "x_acc"), ("y_acc", "y_acc"), ("z_acc", "z_acc"), ("x_vel", "x_vel"), ("y_vel", "y_vel"), ("z_vel", "z_vel"), ("x_pos", "x_pos"), ("y_pos", "y_pos"), ("z_pos", "z_pos"), ("airspeed", "airspeed"), ("vel_variance", "vel_variance"), ("pos_variance", "pos_variance"), ("q", "q"), ("roll_rate", "roll_rate"), ("pitch_rate", "pitch_rate"), ("yaw_rate", "yaw_rate")]

/-- HC_dialect.py:6671-6684 `MAVLink_battery_status_message.__init__` -/
def init147 : InitDef where
  cls := "MAVLink_battery_status_message"
  msg := msg147
  params := ["id", "battery_function", "type", "temperature", "voltages", "current_battery", "current_consumed", "energy_consumed", "battery_remaining"]
  assigns := [("id", "id"), ("battery_function", "battery_function"), ("type", "type"), ("temperature", "temperature"), ("voltages", "voltages"), ("current_battery", "current_battery"), ("current_consumed", "current_consumed"), ("energy_consumed", "energy_consumed"), ("battery_remaining", "battery_remaining")]

/-- HC_dialect.py:6711-6727 `MAVLink_autopilot_version_message.__init__` -/
def init148 : InitDef where
  cls := "MAVLink_autopilot_version_message"
  msg := msg148
  params := ["capabilities", "main_sw_build_time", "main_sw_version", "mavlink_sw_version", "os_sw_version", "board_version", "main_custom_version", "mavlink_custom_version", "os_custom_version", "vendor_id", "product_id", "uid"]
  assigns := [("capabilities", "capabilities"), ("main_sw_build_time", "main_sw_build_time"), ("main_sw_version", "main_sw_version"), ("mavlink_sw_version", "mavlink_sw_version"), ("os_sw_version", "os_sw_version"), ("board_version", "board_version"), ("main_custom_version", "main_custom_version"), ("mavlink_custom_version", "mavlink_custom_version"), ("os_custom_version", "os_custom_version"), ("vendor_id", "vendor_id"), ("product_id", "product_id"), ("uid", "uid")]

/-- HC_dialect.py:6755-6767 `MAVLink_landing_target_message.__init__` -/
def init149 : InitDef where
  cls := "MAVLink_landing_target_message"
  msg := msg149
  params := ["time_usec", "target_num", "frame", "angle_x", "angle_y", "distance", "size_x", "size_y"]
  assigns := [("time_usec", "time_usec"), ("target_num", "target_num"), ("frame", "frame"), ("angle_x", "angle_x"), ("angle_y", "angle_y"), ("distance", "distance"), ("size_x", "size_x"), ("size_y", "size_y")]

/-- HC_dialect.py:6794-6805 `MAVLink_vibration_message.__init__` -/
def init241 : InitDef where
  cls := "MAVLink_vibration_message"
  msg := msg241
  params := ["time_usec", "vibration_x", "vibration_y", "vibration_z", "clipping_0", "clipping_1", "clipping_2"]
  assigns := [("time_usec", "time_usec"), ("vibration_x", "vibration_x"), ("vibration_y", "vibration_y"), ("vibration_z", "vibration_z"), ("clipping_0", "clipping_0"), ("clipping_1", "clipping_1"), ("clipping_2", "clipping_2")]

/-- HC_dialect.py:6844-6858 `MAVLink_home_position_message.__init__` -/
def init242 : InitDef where
  cls := "MAVLink_home_position_message"
  msg := msg242
  params := ["latitude", "longitude", "altitude", "x", "y", "z", "q", "approach_x", "approach_y", "approach_z"]
  assigns := [("latitude", "latitude"), ("longitude", "longitude"), ("altitude", "altitude"), ("x", "x"), ("y", "y"), ("z", "z"), ("q", "q"), ("approach_x", "approach_x"), ("approach_y", "approach_y"), ("approach_z", "approach_z")]

/-- HC_dialect.py:6895-6910 `MAVLink_set_home_position_message.__init__` -/
def init243 : InitDef where
  cls := "MAVLink_set_home_position_message"
  msg := msg243
  params := ["target_system", "latitude", "longitude", "altitude", "x", "y", "z", "q", "approach_x", "approach_y", "approach_z"]
  assigns := [("target_system", "target_system"), ("latitude", "latitude"), ("longitude", "longitude"), ("altitude", "altitude"), ("x", "x"), ("y", "y"), ("z", "z"), ("q", "q"), ("approach_x", "approach_x"), ("approach_y", "approach_y"), ("approach_z", "approach_z")]

/-- HC_dialect.py:6937-6943 `MAVLink_message_interval_message.__init__` -/
def init244 : InitDef where
  cls := "MAVLink_message_interval_message"
  msg := msg244
  params := ["message_id", "interval_us"]
  assigns := [("message_id", "message_id"), ("interval_us", "interval_us")]

/-- HC_dialect.py:6970-6976 `MAVLink_extended_sys_state_message.__init__` -/
def init245 : InitDef where
  cls := "MAVLink_extended_sys_state_message"
  msg := msg245
  params := ["vtol_state", "landed_state"]
  assigns := [("vtol_state", "vtol_state"), ("landed_state", "landed_state")]

/-- HC_dialect.py:7003-7020 `MAVLink_adsb_vehicle_message.__init__` -/
def init246 : InitDef where
  cls := "MAVLink_adsb_vehicle_message"
  msg := msg246
  params := ["ICAO_address", "lat", "lon", "altitude_type", "altitude", "heading", "hor_velocity", "ver_velocity", "callsign", "emitter_type", "tslc", "flags", "squawk"]
  assigns := [("ICAO_address", "ICAO_address"), ("lat", "lat"), ("lon", "lon"), ("altitude_type", "altitude_type"), ("altitude", "altitude"), ("heading", "heading"), ("hor_velocity", "hor_velocity"), ("ver_velocity", "ver_velocity"), ("callsign", "callsign"), ("emitter_type", "emitter_type"), ("tslc", "tslc"), ("flags", "flags"), ("squawk", "squawk")]

/-- HC_dialect.py:7048-7057 `MAVLink_v2_extension_message.__init__` -/
def init248 : InitDef where
  cls := "MAVLink_v2_extension_message"
  msg := msg248
  params := ["target_network", "target_system", "target_component", "message_type", "payload"]
  assigns := [("target_network", "target_network"), ("target_system", "target_system"), ("target_component", "target_component"), ("message_type", "message_type"), ("payload", "payload")]

/-- HC_dialect.py:7086-7094 `MAVLink_memory_vect_message.__init__` -/
def init249 : InitDef where
  cls := "MAVLink_memory_vect_message"
  msg := msg249
  params := ["address", "ver", "type", "value"]
  assigns := [("address", "address"), ("ver", "ver"), ("type", "type"), ("value", "value")]

/-- HC_dialect.py:7121-7130 `MAVLink_debug_vect_message.__init__` -/
def init250 : InitDef where
  cls := "MAVLink_debug_vect_message"
  msg := msg250
  params := ["name", "time_usec", "x", "y", "z"]
  assigns := [("name", "name"), ("time_usec", "time_usec"), ("x", "x"), ("y", "y"), ("z", "z")]

/-- HC_dialect.py:7159-7166 `MAVLink_named_value_float_message.__init__` -/
def init251 : InitDef where
  cls := "MAVLink_named_value_float_message"
  msg := msg251
  params := ["time_boot_ms", "name", "value"]
  assigns := [("time_boot_ms", "time_boot_ms"), ("name", "name"), ("value", "value")]

/-- HC_dialect.py:7195-7202 `MAVLink_named_value_int_message.__init__` -/
def init252 : InitDef where
  cls := "MAVLink_named_value_int_message"
  msg := msg252
  params := ["time_boot_ms", "name", "value"]
  assigns := [("time_boot_ms", "time_boot_ms"), ("name", "name"), ("value", "value")]

/-- HC_dialect.py:7234-7240 `MAVLink_statustext_message.__init__` -/
def init253 : InitDef where
  cls := "MAVLink_statustext_message"
  msg := msg253
  params := ["severity", "text"]
  assigns := [("severity", "severity"), ("text", "text")]

/-- HC_dialect.py:7269-7276 `MAVLink_debug_message.__init__` -/
def init254 : InitDef where
  cls := "MAVLink_debug_message"
  msg := msg254
  params := ["time_boot_ms", "ind", "value"]
  assigns := [("time_boot_ms", "time_boot_ms"), ("ind", "ind"), ("value", "value")]

/-- HC_dialect.py:7303-7310 `MAVLink_altimeter_sensor_message.__init__` -/
def init211 : InitDef where
  cls := "MAVLink_altimeter_sensor_message"
  msg := msg211
  params := ["time_boot_ms", "Altitude_front", "Altitude_back"]
  assigns := [("time_boot_ms", "time_boot_ms"), ("Altitude_front", "Altitude_front"), ("Altitude_back", "Altitude_back")]

/-- HC_dialect.py:7337-7347 `MAVLink_scaled_svs_message.__init__` -/
def init212 : InitDef where
  cls := "MAVLink_scaled_svs_message"
  msg := msg212
  params := ["time_boot_ms", "Speed_of_Sound", "Depth", "Temperature", "Status", "Reserved"]
  assigns := [("time_boot_ms", "time_boot_ms"), ("Speed_of_Sound", "Speed_of_Sound"), ("Depth", "Depth"), ("Temperature", "Temperature"), ("Status", "Status"), ("Reserved", "Reserved")]

/-- HC_dialect.py:7374-7384 `MAVLink_ctd_status_message.__init__` -/
def init213 : InitDef where
  cls := "MAVLink_ctd_status_message"
  msg := msg213
  params := ["time_boot_ms", "Conductivity", "Depth", "Temperature", "Status", "Reserved"]
  assigns := [("time_boot_ms", "time_boot_ms"), ("Conductivity", "Conductivity"), ("Depth", "Depth"), ("Temperature", "Temperature"), ("Status", "Status"), ("Reserved", "Reserved")]

/-- HC_dialect.py:7412-7425 `MAVLink_motor_status_message.__init__` -/
def init214 : InitDef where
  cls := "MAVLink_motor_status_message"
  msg := msg214
  params := ["time_boot_ms", "motor_num", "rpm", "voltage", "current", "Status", "Fault", "temperature", "pressure"]
  assigns := [("time_boot_ms", "time_boot_ms"), ("motor_num", "motor_num"), ("rpm", "rpm"), ("voltage", "voltage"), ("current", "current"), ("Status", "Status"), ("Fault", "Fault"), ("temperature", "temperature"), ("pressure", "pressure")]

/-- HC_dialect.py:7452-7462 `MAVLink_rf_modem_status_message.__init__` -/
def init215 : InitDef where
  cls := "MAVLink_rf_modem_status_message"
  msg := msg215
  params := ["time_boot_ms", "Bit_Rate", "Status", "current", "Reserved", "Reserved2"]
  assigns := [("time_boot_ms", "time_boot_ms"), ("Bit_Rate", "Bit_Rate"), ("Status", "Status"), ("current", "current"), ("Reserved", "Reserved"), ("Reserved2", "Reserved2")]

/-- HC_dialect.py:7490-7496 `MAVLink_system_onoff_req_message.__init__` -/
def init216 : InitDef where
  cls := "MAVLink_system_onoff_req_message"
  msg := msg216
  params := ["time_boot_ms", "status"]
  assigns := [("time_boot_ms", "time_boot_ms"), ("status", "status")]

/-- HC_dialect.py:7524-7530 `MAVLink_system_onoff_status_message.__init__` -/
def init217 : InitDef where
  cls := "MAVLink_system_onoff_status_message"
  msg := msg217
  params := ["time_boot_ms", "status"]
  assigns := [("time_boot_ms", "time_boot_ms"), ("status", "status")]

/-- HC_dialect.py:7558-7567 `MAVLink_chamber_status_message.__init__` -/
def init218 : InitDef where
  cls := "MAVLink_chamber_status_message"
  msg := msg218
  params := ["time_boot_ms", "chamber_num", "pressure", "temperature", "humidity"]
  assigns := [("time_boot_ms", "time_boot_ms"), ("chamber_num", "chamber_num"), ("pressure", "pressure"), ("temperature", "temperature"), ("humidity", "humidity")]

/-- HC_dialect.py:7594-7609 `MAVLink_task_status_message.__init__` -/
def init219 : InitDef where
  cls := "MAVLink_task_status_message"
  msg := msg219
  params := ["taskID", "task_status", "time", "task_time", "task_count", "parse_success_count", "parse_error_count", "interupt_count", "rst_count", "err1", "err2"]
  assigns := [("taskID", "taskID"), ("task_status", "task_status"), ("time", "time"), ("task_time", "task_time"), ("task_count", "task_count"), ("parse_success_count", "parse_success_count"), ("parse_error_count", "parse_error_count"), ("interupt_count", "interupt_count"), ("rst_count", "rst_count"), ("err1", "err1"), ("err2", "err2")]

/-- HC_dialect.py:7637-7668 `MAVLink_param_est_test_message.__init__` -/
def init220 : InitDef where
  cls := "MAVLink_param_est_test_message"
  msg := msg220
  params := ["time_boot_ms_imu", "time_boot_ms_io", "gyro_x", "gyro_y", "gyro_z", "gyro_dot_x", "gyro_dot_y", "gyro_dot_z", "accel_x", "accel_y", "accel_z", "accel_no_g_x", "accel_no_g_y", "accel_no_g_z", "dvl_x", "dvl_y", "dvl_z", "roll", "pitch", "yaw", "motor1_rpm", "motor2_rpm", "motor3_rpm", "motor4_rpm", "motor5_rpm", "motor6_rpm", "motor7_rpm"]
  assigns := [("time_boot_ms_imu", "time_boot_ms_imu"), ("time_boot_ms_io", "time_boot_ms_io"), ("gyro_x", "gyro_x"), ("gyro_y", "gyro_y"), ("gyro_z", "gyro_z"), ("gyro_dot_x", "gyro_dot_x"), ("gyro_dot_y", "gyro_dot_y"), ("gyro_dot_z", "gyro_dot_z"), ("accel_x", "accel_x"), ("accel_y", "accel_y"), ("accel_z", "accel_z"), ("accel_no_g_x", "accel_no_g_x"), ("accel_no_g_y", "accel_no_g_y"), ("accel_no_g_z", "accel_no_g_z"), ("dvl_x", "dvl_x"), ("dvl_y", "dvl_y"), ("dvl_z", "dvl_z"), ("roll", "roll"), ("pitch", "pitch"), ("yaw", "yaw"), ("motor1_rpm", "motor1_rpm"), ("motor2_rpm", "motor2_rpm"), ("motor3_rpm", "motor3_rpm"), ("motor4_rpm", "motor4_rpm"), ("motor5_rpm", "motor5_rpm"), ("motor6_rpm", "motor6_rpm"), ("motor7_rpm", "motor7_rpm")]

/-- HC_dialect.py:7696-7702 `MAVLink_motor_cmd_message.__init__` -/
def init221 : InitDef where
  cls := "MAVLink_motor_cmd_message"
  msg := msg221
  params := ["mode", "speed"]
  assigns := [("mode", "mode"), ("speed", "speed")]

/-- HC_dialect.py:7729-7740 `MAVLink_bathymetry_message.__init__` -/
def init222 : InitDef where
  cls := "MAVLink_bathymetry_message"
  msg := msg222
  params := ["time_usec", "depth", "altitude", "distance", "range_from_body", "seabed_phi", "seabed_theta"]
  assigns := [("time_usec", "time_usec"), ("depth", "depth"), ("altitude", "altitude"), ("distance", "distance"), ("range_from_body", "range_from_body"), ("seabed_phi", "seabed_phi"), ("seabed_theta", "seabed_theta")]

/-- HC_dialect.py:7767-7780 `MAVLink_power_consumption_motors_message.__init__` -/
def init223 : InitDef where
  cls := "MAVLink_power_consumption_motors_message"
  msg := msg223
  params := ["time_boot_ms", "current_ml", "current_mr", "current_p", "current_yb", "current_yf", "current_wl", "current_wr", "battery_voltage"]
  assigns := [("time_boot_ms", "time_boot_ms"), ("current_ml", "current_ml"), ("current_mr", "current_mr"), ("current_p", "current_p"), ("current_yb", "current_yb"), ("current_yf", "current_yf"), ("current_wl", "current_wl"), ("current_wr", "current_wr"), ("battery_voltage", "battery_voltage")]

/-- HC_dialect.py:7807-7820 `MAVLink_power_consumption_2_message.__init__` -/
def init224 : InitDef where
  cls := "MAVLink_power_consumption_2_message"
  msg := msg224
  params := ["time_boot_ms", "current_1", "voltage_1", "current_2", "voltage_2", "current_3", "voltage_3", "current_4", "voltage_4"]
  assigns := [("time_boot_ms", "time_boot_ms"), ("current_1", "current_1"), ("voltage_1", "voltage_1"), ("current_2", "current_2"), ("voltage_2", "voltage_2"), ("current_3", "current_3"), ("voltage_3", "voltage_3"), ("current_4", "current_4"), ("voltage_4", "voltage_4")]

/-- HC_dialect.py:7847-7857 `MAVLink_system_status_2_message.__init__` -/
def init225 : InitDef where
  cls := "MAVLink_system_status_2_message"
  msg := msg225
  params := ["time_boot_ms", "hc_mode", "hc_system_status", "hc_err_id", "debug1", "debug2"]
  assigns := [("time_boot_ms", "time_boot_ms"), ("hc_mode", "hc_mode"), ("hc_system_status", "hc_system_status"), ("hc_err_id", "hc_err_id"), ("debug1", "debug1"), ("debug2", "debug2")]

/-- HC_dialect.py:7884-7896 `MAVLink_gps_timing_message.__init__` -/
def init226 : InitDef where
  cls := "MAVLink_gps_timing_message"
  msg := msg226
  params := ["time_boot_ms", "tow_ms", "tow_ns", "accuracy", "local_time_s", "gps_fix", "rtc_month", "rtc_day"]
  assigns := [("time_boot_ms", "time_boot_ms"), ("tow_ms", "tow_ms"), ("tow_ns", "tow_ns"), ("accuracy", "accuracy"), ("local_time_s", "local_time_s"), ("gps_fix", "gps_fix"), ("rtc_month", "rtc_month"), ("rtc_day", "rtc_day")]

/-- HC_dialect.py:7923-7930 `MAVLink_magnetometer_calibration_message.__init__` -/
def init227 : InitDef where
  cls := "MAVLink_magnetometer_calibration_message"
  msg := msg227
  params := ["time_boot_ms", "bias", "scaling_matrix"]
  assigns := [("time_boot_ms", "time_boot_ms"), ("bias", "bias"), ("scaling_matrix", "scaling_matrix")]

/-- HC_dialect.py:7957-7972 `MAVLink_algorithm_status_message.__init__` -/
def init228 : InitDef where
  cls := "MAVLink_algorithm_status_message"
  msg := msg228
  params := ["time_boot_ms", "rate", "nav_type", "external_heading", "calibrated", "reset", "hc_maneuver", "hc_maneuver2", "velocity_inov", "attitude_cov", "pos_cov"]
  assigns := [("time_boot_ms", "time_boot_ms"), ("rate", "rate"), ("nav_type", "nav_type"), ("external_heading", "external_heading"), ("calibrated", "calibrated"), ("reset", "reset"), ("hc_maneuver", "hc_maneuver"), ("hc_maneuver2", "hc_maneuver2"), ("velocity_inov", "velocity_inov"), ("attitude_cov", "attitude_cov"), ("pos_cov", "pos_cov")]

/-- HC_dialect.py:7999-8018 `MAVLink_dvl_bt_raw_message.__init__` -/
def init229 : InitDef where
  cls := "MAVLink_dvl_bt_raw_message"
  msg := msg229
  params := ["time_boot_ms", "v1", "v2", "v3", "v_err", "wm_v1", "wm_v2", "wm_v3", "wm_v4", "range_1", "range_2", "range_3", "range_4", "good_beams_precentege", "ensamble_number"]
  assigns := [("time_boot_ms", "time_boot_ms"), ("v1", "v1"), ("v2", "v2"), ("v3", "v3"), ("v_err", "v_err"), ("wm_v1", "wm_v1"), ("wm_v2", "wm_v2"), ("wm_v3", "wm_v3"), ("wm_v4", "wm_v4"), ("range_1", "range_1"), ("range_2", "range_2"), ("range_3", "range_3"), ("range_4", "range_4"), ("good_beams_precentege", "good_beams_precentege"), ("ensamble_number", "ensamble_number")]

/-- HC_dialect.py:8045-8055 `MAVLink_dvl_bt_scaled_message.__init__` -/
def init230 : InitDef where
  cls := "MAVLink_dvl_bt_scaled_message"
  msg := msg230
  params := ["time_boot_ms", "v1", "v2", "v3", "altitude", "distance"]
  assigns := [("time_boot_ms", "time_boot_ms"), ("v1", "v1"), ("v2", "v2"), ("v3", "v3"), ("altitude", "altitude"), ("distance", "distance")]

/-- HC_dialect.py:8082-8111 `MAVLink_dvl_bt_highres_message.__init__` -/
def init231 : InitDef where
  cls := "MAVLink_dvl_bt_highres_message"
  msg := msg231
  params := ["time_boot_ms", "V1", "V2", "V3", "V4", "Bt_Dmg_1", "Bt_Dmg_2", "Bt_Dmg_3", "Bt_Dmg_4", "Ref_Frame", "Wm_V1", "Wm_V2", "Wm_V3", "Wm_V4", "Svs", "Slant_range", "Axes_delta_range", "Vertical_range", "Percent_good_4bm", "Percent_good_12bm", "Percent_good_34bm", "Bm_1_raw_range", "Bm_2_raw_range", "Bm_3_raw_range", "Bm_4_raw_range"]
  assigns := [("time_boot_ms", "time_boot_ms"), ("V1", "V1"), ("V2", "V2"), ("V3", "V3"), ("V4", "V4"), ("Bt_Dmg_1", "Bt_Dmg_1"), ("Bt_Dmg_2", "Bt_Dmg_2"), ("Bt_Dmg_3", "Bt_Dmg_3"), ("Bt_Dmg_4", "Bt_Dmg_4"), ("Ref_Frame", "Ref_Frame"), ("Wm_V1", "Wm_V1"), ("Wm_V2", "Wm_V2"), ("Wm_V3", "Wm_V3"), ("Wm_V4", "Wm_V4"), ("Svs", "Svs"), ("Slant_range", "Slant_range"), ("Axes_delta_range", "Axes_delta_range"), ("Vertical_range", "Vertical_range"), ("Percent_good_4bm", "Percent_good_4bm"), ("Percent_good_12bm", "Percent_good_12bm"), ("Percent_good_34bm", "Percent_good_34bm"), ("Bm_1_raw_range", "Bm_1_raw_range"), ("Bm_2_raw_range", "Bm_2_raw_range"), ("Bm_3_raw_range", "Bm_3_raw_range"), ("Bm_4_raw_range", "Bm_4_raw_range")]

/-- HC_dialect.py:8138-8161 `MAVLink_dvl_wp_raw_message.__init__` -/
def init232 : InitDef where
  cls := "MAVLink_dvl_wp_raw_message"
  msg := msg232
  params := ["time_boot_ms", "Depth_Cell_ID", "v1", "v2", "v3", "v_err", "Depth_Correlation_1", "Depth_Correlation_2", "Depth_Correlation_3", "Depth_Correlation_4", "Depth_Echo_Intensity_1", "Depth_Echo_Intensity_2", "Depth_Echo_Intensity_3", "Depth_Echo_Intensity_4", "Percent_Good_1", "Percent_Good_2", "Percent_Good_3", "Percent_Good_4", "status"]
  assigns := [("time_boot_ms", "time_boot_ms"), ("Depth_Cell_ID", "Depth_Cell_ID"), ("v1", "v1"), ("v2", "v2"), ("v3", "v3"), ("v_err", "v_err"), ("Depth_Correlation_1", "Depth_Correlation_1"), ("Depth_Correlation_2", "Depth_Correlation_2"), ("Depth_Correlation_3", "Depth_Correlation_3"), ("Depth_Correlation_4", "Depth_Correlation_4"), ("Depth_Echo_Intensity_1", "Depth_Echo_Intensity_1"), ("Depth_Echo_Intensity_2", "Depth_Echo_Intensity_2"), ("Depth_Echo_Intensity_3", "Depth_Echo_Intensity_3"), ("Depth_Echo_Intensity_4", "Depth_Echo_Intensity_4"), ("Percent_Good_1", "Percent_Good_1"), ("Percent_Good_2", "Percent_Good_2"), ("Percent_Good_3", "Percent_Good_3"), ("Percent_Good_4", "Percent_Good_4"), ("status", "status")]

/-- HC_dialect.py:8189-8201 `MAVLink_time_date_info_message.__init__` -/
def init233 : InitDef where
  cls := "MAVLink_time_date_info_message"
  msg := msg233
  params := ["time_boot_ms", "year", "month", "day", "hours", "minutes", "seconds", "millisec"]
  assigns := [("time_boot_ms", "time_boot_ms"), ("year", "year"), ("month", "month"), ("day", "day"), ("hours", "hours"), ("minutes", "minutes"), ("seconds", "seconds"), ("millisec", "millisec")]

/-- HC_dialect.py:8228-8235 `MAVLink_pinger_data_message.__init__` -/
def init234 : InitDef where
  cls := "MAVLink_pinger_data_message"
  msg := msg234
  params := ["time_boot_ms", "range", "azimuth"]
  assigns := [("time_boot_ms", "time_boot_ms"), ("range", "range"), ("azimuth", "azimuth")]

/-- HC_dialect.py:8262-8272 `MAVLink_hc_acoustic_pos_message.__init__` -/
def init235 : InitDef where
  cls := "MAVLink_hc_acoustic_pos_message"
  msg := msg235
  params := ["time_boot_ms", "range", "azimuth", "lat_1", "lon_1", "tow_1"]
  assigns := [("time_boot_ms", "time_boot_ms"), ("range", "range"), ("azimuth", "azimuth"), ("lat_1", "lat_1"), ("lon_1", "lon_1"), ("tow_1", "tow_1")]

/-- HC_dialect.py:8299-8310 `MAVLink_debug_msg_1_message.__init__` -/
def init236 : InitDef where
  cls := "MAVLink_debug_msg_1_message"
  msg := msg236
  params := ["time_boot_ms", "debug_1_1", "debug_1_2", "debug_1_3", "debug_1_4", "debug_1_5", "debug_1_6"]
  assigns := [("time_boot_ms", "time_boot_ms"), ("debug_1_1", "debug_1_1"), ("debug_1_2", "debug_1_2"), ("debug_1_3", "debug_1_3"), ("debug_1_4", "debug_1_4"), ("debug_1_5", "debug_1_5"), ("debug_1_6", "debug_1_6")]

/-- HC_dialect.py:8337-8350 `MAVLink_hc_acoustic_channel_message.__init__` -/
def init237 : InitDef where
  cls := "MAVLink_hc_acoustic_channel_message"
  msg := msg237
  params := ["time_boot_ms", "mpd", "psnr", "agc", "spd", "crc_pass", "ccerr", "source", "destination"]
  assigns := [("time_boot_ms", "time_boot_ms"), ("mpd", "mpd"), ("psnr", "psnr"), ("agc", "agc"), ("spd", "spd"), ("crc_pass", "crc_pass"), ("ccerr", "ccerr"), ("source", "source"), ("destination", "destination")]

/-- HC_dialect.py:8377-8386 `MAVLink_acoustic_transmission_log_message.__init__` -/
def init238 : InitDef where
  cls := "MAVLink_acoustic_transmission_log_message"
  msg := msg238
  params := ["time_boot_ms", "tow_ms", "count", "slot_num", "data"]
  assigns := [("time_boot_ms", "time_boot_ms"), ("tow_ms", "tow_ms"), ("count", "count"), ("slot_num", "slot_num"), ("data", "data")]

/-- HC_dialect.py:8956-8972 -/
def encode0 : EncodeDef where
  name := "heartbeat_encode"
  params := ["type", "autopilot", "base_mode", "custom_mode", "system_status", "mavlink_version"]
  defaults := [("mavlink_version", 3)]
  callee := "MAVLink_heartbeat_message"
  args := ["type", "autopilot", "base_mode", "custom_mode", "system_status", "mavlink_version"]

/-- HC_dialect.py:8992-9029 -/
def encode1 : EncodeDef where
  name := "sys_status_encode"
  params := ["onboard_control_sensors_present", "onboard_control_sensors_enabled", "onboard_control_sensors_health", "load", "voltage_battery", "current_battery", "battery_remaining", "drop_rate_comm", "errors_comm", "errors_count1", "errors_count2", "errors_count3", "errors_count4"]
  defaults := []
  callee := "MAVLink_sys_status_message"
  args := ["onboard_control_sensors_present", "onboard_control_sensors_enabled", "onboard_control_sensors_health", "load", "voltage_battery", "current_battery", "battery_remaining", "drop_rate_comm", "errors_comm", "errors_count1", "errors_count2", "errors_count3", "errors_count4"]

/-- HC_dialect.py:9070-9079 -/
def encode2 : EncodeDef where
  name := "system_time_encode"
  params := ["time_unix_usec", "time_boot_ms"]
  defaults := []
  callee := "MAVLink_system_time_message"
  args := ["time_unix_usec", "time_boot_ms"]

/-- HC_dialect.py:9092-9104 -/
def encode3 : EncodeDef where
  name := "ping_encode"
  params := ["time_usec", "seq", "target_system", "target_component"]
  defaults := []
  callee := "MAVLink_ping_message"
  args := ["time_usec", "seq", "target_system", "target_component"]

/-- HC_dialect.py:9120-9130 -/
def encode4 : EncodeDef where
  name := "change_operator_control_encode"
  params := ["target_system", "control_request", "version", "passkey"]
  defaults := []
  callee := "MAVLink_change_operator_control_message"
  args := ["target_system", "control_request", "version", "passkey"]

/-- HC_dialect.py:9144-9153 -/
def encode5 : EncodeDef where
  name := "change_operator_control_ack_encode"
  params := ["gcs_system_id", "control_request", "ack"]
  defaults := []
  callee := "MAVLink_change_operator_control_ack_message"
  args := ["gcs_system_id", "control_request", "ack"]

/-- HC_dialect.py:9166-9176 -/
def encode6 : EncodeDef where
  name := "auth_key_encode"
  params := ["key"]
  defaults := []
  callee := "MAVLink_auth_key_message"
  args := ["key"]

/-- HC_dialect.py:9190-9203 -/
def encode7 : EncodeDef where
  name := "set_mode_encode"
  params := ["target_system", "base_mode", "custom_mode"]
  defaults := []
  callee := "MAVLink_set_mode_message"
  args := ["target_system", "base_mode", "custom_mode"]

/-- HC_dialect.py:9220-9238 -/
def encode8 : EncodeDef where
  name := "param_request_read_encode"
  params := ["target_system", "target_component", "param_id", "param_index"]
  defaults := []
  callee := "MAVLink_param_request_read_message"
  args := ["target_system", "target_component", "param_id", "param_index"]

/-- HC_dialect.py:9260-9269 -/
def encode9 : EncodeDef where
  name := "param_request_list_encode"
  params := ["target_system", "target_component"]
  defaults := []
  callee := "MAVLink_param_request_list_message"
  args := ["target_system", "target_component"]

/-- HC_dialect.py:9282-9296 -/
def encode10 : EncodeDef where
  name := "param_value_encode"
  params := ["param_id", "param_value", "param_type", "param_count", "param_index"]
  defaults := []
  callee := "MAVLink_param_value_message"
  args := ["param_id", "param_value", "param_type", "param_count", "param_index"]

/-- HC_dialect.py:9314-9334 -/
def encode11 : EncodeDef where
  name := "param_set_encode"
  params := ["target_system", "target_component", "param_id", "param_value", "param_type"]
  defaults := []
  callee := "MAVLink_param_set_message"
  args := ["target_system", "target_component", "param_id", "param_value", "param_type"]

/-- HC_dialect.py:9358-9379 -/
def encode12 : EncodeDef where
  name := "gps_raw_int_encode"
  params := ["time_usec", "fix_type", "lat", "lon", "alt", "eph", "epv", "vel", "cog", "satellites_visible"]
  defaults := []
  callee := "MAVLink_gps_raw_int_message"
  args := ["time_usec", "fix_type", "lat", "lon", "alt", "eph", "epv", "vel", "cog", "satellites_visible"]

/-- HC_dialect.py:9404-9420 -/
def encode13 : EncodeDef where
  name := "gps_status_encode"
  params := ["satellites_visible", "satellite_prn", "satellite_used", "satellite_elevation", "satellite_azimuth", "satellite_snr"]
  defaults := []
  callee := "MAVLink_gps_status_message"
  args := ["satellites_visible", "satellite_prn", "satellite_used", "satellite_elevation", "satellite_azimuth", "satellite_snr"]

/-- HC_dialect.py:9440-9458 -/
def encode14 : EncodeDef where
  name := "scaled_imu_encode"
  params := ["time_boot_ms", "xacc", "yacc", "zacc", "xgyro", "ygyro", "zgyro", "xmag", "ymag", "zmag"]
  defaults := []
  callee := "MAVLink_scaled_imu_message"
  args := ["time_boot_ms", "xacc", "yacc", "zacc", "xgyro", "ygyro", "zgyro", "xmag", "ymag", "zmag"]

/-- HC_dialect.py:9480-9498 -/
def encode15 : EncodeDef where
  name := "raw_imu_encode"
  params := ["time_usec", "xacc", "yacc", "zacc", "xgyro", "ygyro", "zgyro", "xmag", "ymag", "zmag"]
  defaults := []
  callee := "MAVLink_raw_imu_message"
  args := ["time_usec", "xacc", "yacc", "zacc", "xgyro", "ygyro", "zgyro", "xmag", "ymag", "zmag"]

/-- HC_dialect.py:9520-9533 -/
def encode16 : EncodeDef where
  name := "raw_pressure_encode"
  params := ["time_usec", "press_abs", "press_diff1", "press_diff2", "temperature"]
  defaults := []
  callee := "MAVLink_raw_pressure_message"
  args := ["time_usec", "press_abs", "press_diff1", "press_diff2", "temperature"]

/-- HC_dialect.py:9550-9562 -/
def encode17 : EncodeDef where
  name := "scaled_pressure_encode"
  params := ["time_boot_ms", "press_abs", "press_diff", "temperature"]
  defaults := []
  callee := "MAVLink_scaled_pressure_message"
  args := ["time_boot_ms", "press_abs", "press_diff", "temperature"]

/-- HC_dialect.py:9578-9592 -/
def encode18 : EncodeDef where
  name := "attitude_encode"
  params := ["time_boot_ms", "roll", "pitch", "yaw", "rollspeed", "pitchspeed", "yawspeed"]
  defaults := []
  callee := "MAVLink_attitude_message"
  args := ["time_boot_ms", "roll", "pitch", "yaw", "rollspeed", "pitchspeed", "yawspeed"]

/-- HC_dialect.py:9610-9627 -/
def encode19 : EncodeDef where
  name := "attitude_quaternion_encode"
  params := ["time_boot_ms", "q1", "q2", "q3", "q4", "rollspeed", "pitchspeed", "yawspeed"]
  defaults := []
  callee := "MAVLink_attitude_quaternion_message"
  args := ["time_boot_ms", "q1", "q2", "q3", "q4", "rollspeed", "pitchspeed", "yawspeed"]

/-- HC_dialect.py:9648-9664 -/
def encode20 : EncodeDef where
  name := "local_position_ned_encode"
  params := ["time_boot_ms", "x", "y", "z", "vx", "vy", "vz"]
  defaults := []
  callee := "MAVLink_local_position_ned_message"
  args := ["time_boot_ms", "x", "y", "z", "vx", "vy", "vz"]

/-- HC_dialect.py:9684-9704 -/
def encode21 : EncodeDef where
  name := "global_position_int_encode"
  params := ["time_boot_ms", "lat", "lon", "alt", "relative_alt", "bottom_clearnce", "depth", "vx", "vy", "vz", "hdg"]
  defaults := []
  callee := "MAVLink_global_position_int_message"
  args := ["time_boot_ms", "lat", "lon", "alt", "relative_alt", "bottom_clearnce", "depth", "vx", "vy", "vz", "hdg"]

/-- HC_dialect.py:9728-9747 -/
def encode22 : EncodeDef where
  name := "rc_channels_scaled_encode"
  params := ["time_boot_ms", "port", "chan1_scaled", "chan2_scaled", "chan3_scaled", "chan4_scaled", "chan5_scaled", "chan6_scaled", "chan7_scaled", "chan8_scaled", "rssi"]
  defaults := []
  callee := "MAVLink_rc_channels_scaled_message"
  args := ["time_boot_ms", "port", "chan1_scaled", "chan2_scaled", "chan3_scaled", "chan4_scaled", "chan5_scaled", "chan6_scaled", "chan7_scaled", "chan8_scaled", "rssi"]

/-- HC_dialect.py:9770-9790 -/
def encode23 : EncodeDef where
  name := "rc_channels_raw_encode"
  params := ["time_boot_ms", "port", "chan1_raw", "chan2_raw", "chan3_raw", "chan4_raw", "chan5_raw", "chan6_raw", "chan7_raw", "chan8_raw", "rssi"]
  defaults := []
  callee := "MAVLink_rc_channels_raw_message"
  args := ["time_boot_ms", "port", "chan1_raw", "chan2_raw", "chan3_raw", "chan4_raw", "chan5_raw", "chan6_raw", "chan7_raw", "chan8_raw", "rssi"]

/-- HC_dialect.py:9814-9833 -/
def encode24 : EncodeDef where
  name := "servo_output_raw_encode"
  params := ["time_usec", "port", "servo1_raw", "servo2_raw", "servo3_raw", "servo4_raw", "servo5_raw", "servo6_raw", "servo7_raw", "servo8_raw"]
  defaults := []
  callee := "MAVLink_servo_output_raw_message"
  args := ["time_usec", "port", "servo1_raw", "servo2_raw", "servo3_raw", "servo4_raw", "servo5_raw", "servo6_raw", "servo7_raw", "servo8_raw"]

/-- HC_dialect.py:9856-9869 -/
def encode25 : EncodeDef where
  name := "mission_request_partial_list_encode"
  params := ["target_system", "target_component", "start_index", "end_index"]
  defaults := []
  callee := "MAVLink_mission_request_partial_list_message"
  args := ["target_system", "target_component", "start_index", "end_index"]

/-- HC_dialect.py:9886-9899 -/
def encode26 : EncodeDef where
  name := "mission_write_partial_list_encode"
  params := ["target_system", "target_component", "start_index", "end_index"]
  defaults := []
  callee := "MAVLink_mission_write_partial_list_message"
  args := ["target_system", "target_component", "start_index", "end_index"]

/-- HC_dialect.py:9916-9942 -/
def encode27 : EncodeDef where
  name := "mission_item_encode"
  params := ["target_system", "target_component", "seq", "frame", "command", "current", "autocontinue", "param1", "param2", "param3", "param4", "x", "y", "z"]
  defaults := []
  callee := "MAVLink_mission_item_message"
  args := ["target_system", "target_component", "seq", "frame", "command", "current", "autocontinue", "param1", "param2", "param3", "param4", "x", "y", "z"]

/-- HC_dialect.py:9972-9984 -/
def encode28 : EncodeDef where
  name := "mission_request_encode"
  params := ["target_system", "target_component", "seq"]
  defaults := []
  callee := "MAVLink_mission_request_message"
  args := ["target_system", "target_component", "seq"]

/-- HC_dialect.py:10000-10012 -/
def encode29 : EncodeDef where
  name := "mission_set_current_encode"
  params := ["target_system", "target_component", "seq"]
  defaults := []
  callee := "MAVLink_mission_set_current_message"
  args := ["target_system", "target_component", "seq"]

/-- HC_dialect.py:10028-10037 -/
def encode30 : EncodeDef where
  name := "mission_current_encode"
  params := ["seq"]
  defaults := []
  callee := "MAVLink_mission_current_message"
  args := ["seq"]

/-- HC_dialect.py:10050-10058 -/
def encode31 : EncodeDef where
  name := "mission_request_list_encode"
  params := ["target_system", "target_component"]
  defaults := []
  callee := "MAVLink_mission_request_list_message"
  args := ["target_system", "target_component"]

/-- HC_dialect.py:10070-10082 -/
def encode32 : EncodeDef where
  name := "mission_count_encode"
  params := ["target_system", "target_component", "count"]
  defaults := []
  callee := "MAVLink_mission_count_message"
  args := ["target_system", "target_component", "count"]

/-- HC_dialect.py:10098-10106 -/
def encode33 : EncodeDef where
  name := "mission_clear_all_encode"
  params := ["target_system", "target_component"]
  defaults := []
  callee := "MAVLink_mission_clear_all_message"
  args := ["target_system", "target_component"]

/-- HC_dialect.py:10118-10128 -/
def encode34 : EncodeDef where
  name := "mission_item_reached_encode"
  params := ["seq"]
  defaults := []
  callee := "MAVLink_mission_item_reached_message"
  args := ["seq"]

/-- HC_dialect.py:10142-10153 -/
def encode35 : EncodeDef where
  name := "mission_ack_encode"
  params := ["target_system", "target_component", "type"]
  defaults := []
  callee := "MAVLink_mission_ack_message"
  args := ["target_system", "target_component", "type"]

/-- HC_dialect.py:10168-10182 -/
def encode36 : EncodeDef where
  name := "set_gps_global_origin_encode"
  params := ["target_system", "latitude", "longitude", "altitude"]
  defaults := []
  callee := "MAVLink_set_gps_global_origin_message"
  args := ["target_system", "latitude", "longitude", "altitude"]

/-- HC_dialect.py:10200-10210 -/
def encode37 : EncodeDef where
  name := "gps_global_origin_encode"
  params := ["latitude", "longitude", "altitude"]
  defaults := []
  callee := "MAVLink_gps_global_origin_message"
  args := ["latitude", "longitude", "altitude"]

/-- HC_dialect.py:10224-10240 -/
def encode38 : EncodeDef where
  name := "param_map_rc_encode"
  params := ["target_system", "target_component", "param_id", "param_index", "parameter_rc_channel_index", "param_value0", "scale", "param_value_min", "param_value_max"]
  defaults := []
  callee := "MAVLink_param_map_rc_message"
  args := ["target_system", "target_component", "param_id", "param_index", "parameter_rc_channel_index", "param_value0", "scale", "param_value_min", "param_value_max"]

/-- HC_dialect.py:10260-10279 -/
def encode39 : EncodeDef where
  name := "safety_set_allowed_area_encode"
  params := ["target_system", "target_component", "frame", "p1x", "p1y", "p1z", "p2x", "p2y", "p2z"]
  defaults := []
  callee := "MAVLink_safety_set_allowed_area_message"
  args := ["target_system", "target_component", "frame", "p1x", "p1y", "p1z", "p2x", "p2y", "p2z"]

/-- HC_dialect.py:10302-10315 -/
def encode40 : EncodeDef where
  name := "safety_allowed_area_encode"
  params := ["frame", "p1x", "p1y", "p1z", "p2x", "p2y", "p2z"]
  defaults := []
  callee := "MAVLink_safety_allowed_area_message"
  args := ["frame", "p1x", "p1y", "p1z", "p2x", "p2y", "p2z"]

/-- HC_dialect.py:10332-10347 -/
def encode41 : EncodeDef where
  name := "attitude_quaternion_cov_encode"
  params := ["time_boot_ms", "q", "rollspeed", "pitchspeed", "yawspeed", "covariance"]
  defaults := []
  callee := "MAVLink_attitude_quaternion_cov_message"
  args := ["time_boot_ms", "q", "rollspeed", "pitchspeed", "yawspeed", "covariance"]

/-- HC_dialect.py:10366-10383 -/
def encode42 : EncodeDef where
  name := "nav_controller_output_encode"
  params := ["nav_roll", "nav_pitch", "nav_bearing", "target_bearing", "wp_dist", "alt_error", "aspd_error", "xtrack_error"]
  defaults := []
  callee := "MAVLink_nav_controller_output_message"
  args := ["nav_roll", "nav_pitch", "nav_bearing", "target_bearing", "wp_dist", "alt_error", "aspd_error", "xtrack_error"]

/-- HC_dialect.py:10404-10428 -/
def encode43 : EncodeDef where
  name := "global_position_int_cov_encode"
  params := ["time_boot_ms", "time_utc", "estimator_type", "lat", "lon", "alt", "relative_alt", "vx", "vy", "vz", "covariance"]
  defaults := []
  callee := "MAVLink_global_position_int_cov_message"
  args := ["time_boot_ms", "time_utc", "estimator_type", "lat", "lon", "alt", "relative_alt", "vx", "vy", "vz", "covariance"]

/-- HC_dialect.py:10456-10478 -/
def encode44 : EncodeDef where
  name := "local_position_ned_cov_encode"
  params := ["time_boot_ms", "time_utc", "estimator_type", "x", "y", "z", "vx", "vy", "vz", "ax", "ay", "az", "covariance"]
  defaults := []
  callee := "MAVLink_local_position_ned_cov_message"
  args := ["time_boot_ms", "time_utc", "estimator_type", "x", "y", "z", "vx", "vy", "vz", "ax", "ay", "az", "covariance"]

/-- HC_dialect.py:10504-10534 -/
def encode45 : EncodeDef where
  name := "rc_channels_encode"
  params := ["time_boot_ms", "chancount", "chan1_raw", "chan2_raw", "chan3_raw", "chan4_raw", "chan5_raw", "chan6_raw", "chan7_raw", "chan8_raw", "chan9_raw", "chan10_raw", "chan11_raw", "chan12_raw", "chan13_raw", "chan14_raw", "chan15_raw", "chan16_raw", "chan17_raw", "chan18_raw", "rssi"]
  defaults := []
  callee := "MAVLink_rc_channels_message"
  args := ["time_boot_ms", "chancount", "chan1_raw", "chan2_raw", "chan3_raw", "chan4_raw", "chan5_raw", "chan6_raw", "chan7_raw", "chan8_raw", "chan9_raw", "chan10_raw", "chan11_raw", "chan12_raw", "chan13_raw", "chan14_raw", "chan15_raw", "chan16_raw", "chan17_raw", "chan18_raw", "rssi"]

/-- HC_dialect.py:10568-10579 -/
def encode46 : EncodeDef where
  name := "request_data_stream_encode"
  params := ["target_system", "target_component", "req_stream_id", "req_message_rate", "start_stop"]
  defaults := []
  callee := "MAVLink_request_data_stream_message"
  args := ["target_system", "target_component", "req_stream_id", "req_message_rate", "start_stop"]

/-- HC_dialect.py:10594-10603 -/
def encode47 : EncodeDef where
  name := "data_stream_encode"
  params := ["stream_id", "message_rate", "on_off"]
  defaults := []
  callee := "MAVLink_data_stream_message"
  args := ["stream_id", "message_rate", "on_off"]

/-- HC_dialect.py:10616-10632 -/
def encode48 : EncodeDef where
  name := "manual_control_encode"
  params := ["target", "x", "y", "z", "r", "buttons"]
  defaults := []
  callee := "MAVLink_manual_control_message"
  args := ["target", "x", "y", "z", "r", "buttons"]

/-- HC_dialect.py:10652-10675 -/
def encode49 : EncodeDef where
  name := "rc_channels_override_encode"
  params := ["target_system", "target_component", "chan1_raw", "chan2_raw", "chan3_raw", "chan4_raw", "chan5_raw", "chan6_raw", "chan7_raw", "chan8_raw"]
  defaults := []
  callee := "MAVLink_rc_channels_override_message"
  args := ["target_system", "target_component", "chan1_raw", "chan2_raw", "chan3_raw", "chan4_raw", "chan5_raw", "chan6_raw", "chan7_raw", "chan8_raw"]

/-- HC_dialect.py:10702-10728 -/
def encode50 : EncodeDef where
  name := "mission_item_int_encode"
  params := ["target_system", "target_component", "seq", "frame", "command", "current", "autocontinue", "param1", "param2", "param3", "param4", "x", "y", "z"]
  defaults := []
  callee := "MAVLink_mission_item_int_message"
  args := ["target_system", "target_component", "seq", "frame", "command", "current", "autocontinue", "param1", "param2", "param3", "param4", "x", "y", "z"]

/-- HC_dialect.py:10758-10770 -/
def encode51 : EncodeDef where
  name := "vfr_hud_encode"
  params := ["airspeed", "groundspeed", "heading", "throttle", "alt", "climb"]
  defaults := []
  callee := "MAVLink_vfr_hud_message"
  args := ["airspeed", "groundspeed", "heading", "throttle", "alt", "climb"]

/-- HC_dialect.py:10786-10806 -/
def encode52 : EncodeDef where
  name := "command_int_encode"
  params := ["target_system", "target_component", "frame", "command", "current", "autocontinue", "param1", "param2", "param3", "param4", "x", "y", "z"]
  defaults := []
  callee := "MAVLink_command_int_message"
  args := ["target_system", "target_component", "frame", "command", "current", "autocontinue", "param1", "param2", "param3", "param4", "x", "y", "z"]

/-- HC_dialect.py:10830-10847 -/
def encode53 : EncodeDef where
  name := "command_long_encode"
  params := ["target_system", "target_component", "command", "confirmation", "param1", "param2", "param3", "param4", "param5", "param6", "param7"]
  defaults := []
  callee := "MAVLink_command_long_message"
  args := ["target_system", "target_component", "command", "confirmation", "param1", "param2", "param3", "param4", "param5", "param6", "param7"]

/-- HC_dialect.py:10868-10877 -/
def encode54 : EncodeDef where
  name := "command_ack_encode"
  params := ["command", "result"]
  defaults := []
  callee := "MAVLink_command_ack_message"
  args := ["command", "result"]

/-- HC_dialect.py:10890-10903 -/
def encode55 : EncodeDef where
  name := "manual_setpoint_encode"
  params := ["time_boot_ms", "roll", "pitch", "yaw", "thrust", "mode_switch", "manual_override_switch"]
  defaults := []
  callee := "MAVLink_manual_setpoint_message"
  args := ["time_boot_ms", "roll", "pitch", "yaw", "thrust", "mode_switch", "manual_override_switch"]

/-- HC_dialect.py:10920-10935 -/
def encode56 : EncodeDef where
  name := "set_attitude_target_encode"
  params := ["time_boot_ms", "target_system", "target_component", "type_mask", "q", "body_roll_rate", "body_pitch_rate", "body_yaw_rate", "thrust"]
  defaults := []
  callee := "MAVLink_set_attitude_target_message"
  args := ["time_boot_ms", "target_system", "target_component", "type_mask", "q", "body_roll_rate", "body_pitch_rate", "body_yaw_rate", "thrust"]

/-- HC_dialect.py:10954-10967 -/
def encode57 : EncodeDef where
  name := "attitude_target_encode"
  params := ["time_boot_ms", "type_mask", "q", "body_roll_rate", "body_pitch_rate", "body_yaw_rate", "thrust"]
  defaults := []
  callee := "MAVLink_attitude_target_message"
  args := ["time_boot_ms", "type_mask", "q", "body_roll_rate", "body_pitch_rate", "body_yaw_rate", "thrust"]

/-- HC_dialect.py:10984-11007 -/
def encode58 : EncodeDef where
  name := "set_position_target_local_ned_encode"
  params := ["time_boot_ms", "target_system", "target_component", "coordinate_frame", "type_mask", "x", "y", "z", "vx", "vy", "vz", "afx", "afy", "afz", "yaw", "yaw_rate"]
  defaults := []
  callee := "MAVLink_set_position_target_local_ned_message"
  args := ["time_boot_ms", "target_system", "target_component", "coordinate_frame", "type_mask", "x", "y", "z", "vx", "vy", "vz", "afx", "afy", "afz", "yaw", "yaw_rate"]

/-- HC_dialect.py:11034-11055 -/
def encode59 : EncodeDef where
  name := "position_target_local_ned_encode"
  params := ["time_boot_ms", "coordinate_frame", "type_mask", "x", "y", "z", "vx", "vy", "vz", "afx", "afy", "afz", "yaw", "yaw_rate"]
  defaults := []
  callee := "MAVLink_position_target_local_ned_message"
  args := ["time_boot_ms", "coordinate_frame", "type_mask", "x", "y", "z", "vx", "vy", "vz", "afx", "afy", "afz", "yaw", "yaw_rate"]

/-- HC_dialect.py:11080-11103 -/
def encode60 : EncodeDef where
  name := "set_position_target_global_int_encode"
  params := ["time_boot_ms", "target_system", "target_component", "coordinate_frame", "type_mask", "lat_int", "lon_int", "alt", "vx", "vy", "vz", "afx", "afy", "afz", "yaw", "yaw_rate"]
  defaults := []
  callee := "MAVLink_set_position_target_global_int_message"
  args := ["time_boot_ms", "target_system", "target_component", "coordinate_frame", "type_mask", "lat_int", "lon_int", "alt", "vx", "vy", "vz", "afx", "afy", "afz", "yaw", "yaw_rate"]

/-- HC_dialect.py:11130-11151 -/
def encode61 : EncodeDef where
  name := "position_target_global_int_encode"
  params := ["time_boot_ms", "coordinate_frame", "type_mask", "lat_int", "lon_int", "alt", "vx", "vy", "vz", "afx", "afy", "afz", "yaw", "yaw_rate"]
  defaults := []
  callee := "MAVLink_position_target_global_int_message"
  args := ["time_boot_ms", "coordinate_frame", "type_mask", "lat_int", "lon_int", "alt", "vx", "vy", "vz", "afx", "afy", "afz", "yaw", "yaw_rate"]

/-- HC_dialect.py:11176-11193 -/
def encode62 : EncodeDef where
  name := "local_position_ned_system_global_offset_encode"
  params := ["time_boot_ms", "x", "y", "z", "roll", "pitch", "yaw"]
  defaults := []
  callee := "MAVLink_local_position_ned_system_global_offset_message"
  args := ["time_boot_ms", "x", "y", "z", "roll", "pitch", "yaw"]

/-- HC_dialect.py:11214-11240 -/
def encode63 : EncodeDef where
  name := "hil_state_encode"
  params := ["time_usec", "roll", "pitch", "yaw", "rollspeed", "pitchspeed", "yawspeed", "lat", "lon", "alt", "vx", "vy", "vz", "xacc", "yacc", "zacc"]
  defaults := []
  callee := "MAVLink_hil_state_message"
  args := ["time_usec", "roll", "pitch", "yaw", "rollspeed", "pitchspeed", "yawspeed", "lat", "lon", "alt", "vx", "vy", "vz", "xacc", "yacc", "zacc"]

/-- HC_dialect.py:11270-11288 -/
def encode64 : EncodeDef where
  name := "hil_controls_encode"
  params := ["time_usec", "roll_ailerons", "pitch_elevator", "yaw_rudder", "throttle", "aux1", "aux2", "aux3", "aux4", "mode", "nav_mode"]
  defaults := []
  callee := "MAVLink_hil_controls_message"
  args := ["time_usec", "roll_ailerons", "pitch_elevator", "yaw_rudder", "throttle", "aux1", "aux2", "aux3", "aux4", "mode", "nav_mode"]

/-- HC_dialect.py:11310-11334 -/
def encode65 : EncodeDef where
  name := "hil_rc_inputs_raw_encode"
  params := ["time_usec", "chan1_raw", "chan2_raw", "chan3_raw", "chan4_raw", "chan5_raw", "chan6_raw", "chan7_raw", "chan8_raw", "chan9_raw", "chan10_raw", "chan11_raw", "chan12_raw", "rssi"]
  defaults := []
  callee := "MAVLink_hil_rc_inputs_raw_message"
  args := ["time_usec", "chan1_raw", "chan2_raw", "chan3_raw", "chan4_raw", "chan5_raw", "chan6_raw", "chan7_raw", "chan8_raw", "chan9_raw", "chan10_raw", "chan11_raw", "chan12_raw", "rssi"]

/-- HC_dialect.py:11362-11376 -/
def encode66 : EncodeDef where
  name := "optical_flow_encode"
  params := ["time_usec", "sensor_id", "flow_x", "flow_y", "flow_comp_m_x", "flow_comp_m_y", "quality", "ground_distance"]
  defaults := []
  callee := "MAVLink_optical_flow_message"
  args := ["time_usec", "sensor_id", "flow_x", "flow_y", "flow_comp_m_x", "flow_comp_m_y", "quality", "ground_distance"]

/-- HC_dialect.py:11394-11407 -/
def encode67 : EncodeDef where
  name := "global_vision_position_estimate_encode"
  params := ["usec", "x", "y", "z", "roll", "pitch", "yaw"]
  defaults := []
  callee := "MAVLink_global_vision_position_estimate_message"
  args := ["usec", "x", "y", "z", "roll", "pitch", "yaw"]

/-- HC_dialect.py:11424-11437 -/
def encode68 : EncodeDef where
  name := "vision_position_estimate_encode"
  params := ["usec", "x", "y", "z", "roll", "pitch", "yaw"]
  defaults := []
  callee := "MAVLink_vision_position_estimate_message"
  args := ["usec", "x", "y", "z", "roll", "pitch", "yaw"]

/-- HC_dialect.py:11454-11464 -/
def encode69 : EncodeDef where
  name := "vision_speed_estimate_encode"
  params := ["usec", "x", "y", "z"]
  defaults := []
  callee := "MAVLink_vision_speed_estimate_message"
  args := ["usec", "x", "y", "z"]

/-- HC_dialect.py:11478-11491 -/
def encode70 : EncodeDef where
  name := "vicon_position_estimate_encode"
  params := ["usec", "x", "y", "z", "roll", "pitch", "yaw"]
  defaults := []
  callee := "MAVLink_vicon_position_estimate_message"
  args := ["usec", "x", "y", "z", "roll", "pitch", "yaw"]

/-- HC_dialect.py:11508-11529 -/
def encode71 : EncodeDef where
  name := "highres_imu_encode"
  params := ["time_usec", "xacc", "yacc", "zacc", "xgyro", "ygyro", "zgyro", "xmag", "ymag", "zmag", "abs_pressure", "diff_pressure", "pressure_alt", "temperature", "fields_updated"]
  defaults := []
  callee := "MAVLink_highres_imu_message"
  args := ["time_usec", "xacc", "yacc", "zacc", "xgyro", "ygyro", "zgyro", "xmag", "ymag", "zmag", "abs_pressure", "diff_pressure", "pressure_alt", "temperature", "fields_updated"]

/-- HC_dialect.py:11554-11573 -/
def encode72 : EncodeDef where
  name := "optical_flow_rad_encode"
  params := ["time_usec", "sensor_id", "integration_time_us", "integrated_x", "integrated_y", "integrated_xgyro", "integrated_ygyro", "integrated_zgyro", "temperature", "quality", "time_delta_distance_us", "distance"]
  defaults := []
  callee := "MAVLink_optical_flow_rad_message"
  args := ["time_usec", "sensor_id", "integration_time_us", "integrated_x", "integrated_y", "integrated_xgyro", "integrated_ygyro", "integrated_zgyro", "temperature", "quality", "time_delta_distance_us", "distance"]

/-- HC_dialect.py:11596-11617 -/
def encode73 : EncodeDef where
  name := "hil_sensor_encode"
  params := ["time_usec", "xacc", "yacc", "zacc", "xgyro", "ygyro", "zgyro", "xmag", "ymag", "zmag", "abs_pressure", "diff_pressure", "pressure_alt", "temperature", "fields_updated"]
  defaults := []
  callee := "MAVLink_hil_sensor_message"
  args := ["time_usec", "xacc", "yacc", "zacc", "xgyro", "ygyro", "zgyro", "xmag", "ymag", "zmag", "abs_pressure", "diff_pressure", "pressure_alt", "temperature", "fields_updated"]

/-- HC_dialect.py:11642-11669 -/
def encode74 : EncodeDef where
  name := "sim_state_encode"
  params := ["q1", "q2", "q3", "q4", "roll", "pitch", "yaw", "xacc", "yacc", "zacc", "xgyro", "ygyro", "zgyro", "lat", "lon", "alt", "std_dev_horz", "std_dev_vert", "vn", "ve", "vd"]
  defaults := []
  callee := "MAVLink_sim_state_message"
  args := ["q1", "q2", "q3", "q4", "roll", "pitch", "yaw", "xacc", "yacc", "zacc", "xgyro", "ygyro", "zgyro", "lat", "lon", "alt", "std_dev_horz", "std_dev_vert", "vn", "ve", "vd"]

/-- HC_dialect.py:11700-11713 -/
def encode75 : EncodeDef where
  name := "radio_status_encode"
  params := ["rssi", "remrssi", "txbuf", "noise", "remnoise", "rxerrors", "fixed"]
  defaults := []
  callee := "MAVLink_radio_status_message"
  args := ["rssi", "remrssi", "txbuf", "noise", "remnoise", "rxerrors", "fixed"]

/-- HC_dialect.py:11730-11740 -/
def encode76 : EncodeDef where
  name := "file_transfer_protocol_encode"
  params := ["target_network", "target_system", "target_component", "payload"]
  defaults := []
  callee := "MAVLink_file_transfer_protocol_message"
  args := ["target_network", "target_system", "target_component", "payload"]

/-- HC_dialect.py:11754-11762 -/
def encode77 : EncodeDef where
  name := "timesync_encode"
  params := ["tc1", "ts1"]
  defaults := []
  callee := "MAVLink_timesync_message"
  args := ["tc1", "ts1"]

/-- HC_dialect.py:11774-11782 -/
def encode78 : EncodeDef where
  name := "camera_trigger_encode"
  params := ["time_usec", "seq"]
  defaults := []
  callee := "MAVLink_camera_trigger_message"
  args := ["time_usec", "seq"]

/-- HC_dialect.py:11794-11818 -/
def encode79 : EncodeDef where
  name := "hil_gps_encode"
  params := ["time_usec", "fix_type", "lat", "lon", "alt", "eph", "epv", "vel", "vn", "ve", "vd", "cog", "satellites_visible"]
  defaults := []
  callee := "MAVLink_hil_gps_message"
  args := ["time_usec", "fix_type", "lat", "lon", "alt", "eph", "epv", "vel", "vn", "ve", "vd", "cog", "satellites_visible"]

/-- HC_dialect.py:11846-11865 -/
def encode80 : EncodeDef where
  name := "hil_optical_flow_encode"
  params := ["time_usec", "sensor_id", "integration_time_us", "integrated_x", "integrated_y", "integrated_xgyro", "integrated_ygyro", "integrated_zgyro", "temperature", "quality", "time_delta_distance_us", "distance"]
  defaults := []
  callee := "MAVLink_hil_optical_flow_message"
  args := ["time_usec", "sensor_id", "integration_time_us", "integrated_x", "integrated_y", "integrated_xgyro", "integrated_ygyro", "integrated_zgyro", "temperature", "quality", "time_delta_distance_us", "distance"]

/-- HC_dialect.py:11888-11913 -/
def encode81 : EncodeDef where
  name := "hil_state_quaternion_encode"
  params := ["time_usec", "attitude_quaternion", "rollspeed", "pitchspeed", "yawspeed", "lat", "lon", "alt", "vx", "vy", "vz", "ind_airspeed", "true_airspeed", "xacc", "yacc", "zacc"]
  defaults := []
  callee := "MAVLink_hil_state_quaternion_message"
  args := ["time_usec", "attitude_quaternion", "rollspeed", "pitchspeed", "yawspeed", "lat", "lon", "alt", "vx", "vy", "vz", "ind_airspeed", "true_airspeed", "xacc", "yacc", "zacc"]

/-- HC_dialect.py:11942-11960 -/
def encode82 : EncodeDef where
  name := "scaled_imu2_encode"
  params := ["time_boot_ms", "xacc", "yacc", "zacc", "xgyro", "ygyro", "zgyro", "xmag", "ymag", "zmag"]
  defaults := []
  callee := "MAVLink_scaled_imu2_message"
  args := ["time_boot_ms", "xacc", "yacc", "zacc", "xgyro", "ygyro", "zgyro", "xmag", "ymag", "zmag"]

/-- HC_dialect.py:11982-11993 -/
def encode83 : EncodeDef where
  name := "log_request_list_encode"
  params := ["target_system", "target_component", "start", "end"]
  defaults := []
  callee := "MAVLink_log_request_list_message"
  args := ["target_system", "target_component", "start", "end"]

/-- HC_dialect.py:12008-12019 -/
def encode84 : EncodeDef where
  name := "log_entry_encode"
  params := ["id", "num_logs", "last_log_num", "time_utc", "size"]
  defaults := []
  callee := "MAVLink_log_entry_message"
  args := ["id", "num_logs", "last_log_num", "time_utc", "size"]

/-- HC_dialect.py:12034-12045 -/
def encode85 : EncodeDef where
  name := "log_request_data_encode"
  params := ["target_system", "target_component", "id", "ofs", "count"]
  defaults := []
  callee := "MAVLink_log_request_data_message"
  args := ["target_system", "target_component", "id", "ofs", "count"]

/-- HC_dialect.py:12060-12070 -/
def encode86 : EncodeDef where
  name := "log_data_encode"
  params := ["id", "ofs", "count", "data"]
  defaults := []
  callee := "MAVLink_log_data_message"
  args := ["id", "ofs", "count", "data"]

/-- HC_dialect.py:12084-12092 -/
def encode87 : EncodeDef where
  name := "log_erase_encode"
  params := ["target_system", "target_component"]
  defaults := []
  callee := "MAVLink_log_erase_message"
  args := ["target_system", "target_component"]

/-- HC_dialect.py:12104-12112 -/
def encode88 : EncodeDef where
  name := "log_request_end_encode"
  params := ["target_system", "target_component"]
  defaults := []
  callee := "MAVLink_log_request_end_message"
  args := ["target_system", "target_component"]

/-- HC_dialect.py:12124-12134 -/
def encode89 : EncodeDef where
  name := "gps_inject_data_encode"
  params := ["target_system", "target_component", "len", "data"]
  defaults := []
  callee := "MAVLink_gps_inject_data_message"
  args := ["target_system", "target_component", "len", "data"]

/-- HC_dialect.py:12148-12167 -/
def encode90 : EncodeDef where
  name := "gps2_raw_encode"
  params := ["time_usec", "fix_type", "lat", "lon", "alt", "eph", "epv", "vel", "cog", "satellites_visible", "dgps_numch", "dgps_age"]
  defaults := []
  callee := "MAVLink_gps2_raw_message"
  args := ["time_usec", "fix_type", "lat", "lon", "alt", "eph", "epv", "vel", "cog", "satellites_visible", "dgps_numch", "dgps_age"]

/-- HC_dialect.py:12190-12199 -/
def encode91 : EncodeDef where
  name := "power_status_encode"
  params := ["Vcc", "Vservo", "flags"]
  defaults := []
  callee := "MAVLink_power_status_message"
  args := ["Vcc", "Vservo", "flags"]

/-- HC_dialect.py:12212-12229 -/
def encode92 : EncodeDef where
  name := "serial_control_encode"
  params := ["device", "flags", "timeout", "baudrate", "count", "data"]
  defaults := []
  callee := "MAVLink_serial_control_message"
  args := ["device", "flags", "timeout", "baudrate", "count", "data"]

/-- HC_dialect.py:12250-12270 -/
def encode93 : EncodeDef where
  name := "gps_rtk_encode"
  params := ["time_last_baseline_ms", "rtk_receiver_id", "wn", "tow", "rtk_health", "rtk_rate", "nsats", "baseline_coords_type", "baseline_a_mm", "baseline_b_mm", "baseline_c_mm", "accuracy", "iar_num_hypotheses"]
  defaults := []
  callee := "MAVLink_gps_rtk_message"
  args := ["time_last_baseline_ms", "rtk_receiver_id", "wn", "tow", "rtk_health", "rtk_rate", "nsats", "baseline_coords_type", "baseline_a_mm", "baseline_b_mm", "baseline_c_mm", "accuracy", "iar_num_hypotheses"]

/-- HC_dialect.py:12294-12314 -/
def encode94 : EncodeDef where
  name := "gps2_rtk_encode"
  params := ["time_last_baseline_ms", "rtk_receiver_id", "wn", "tow", "rtk_health", "rtk_rate", "nsats", "baseline_coords_type", "baseline_a_mm", "baseline_b_mm", "baseline_c_mm", "accuracy", "iar_num_hypotheses"]
  defaults := []
  callee := "MAVLink_gps2_rtk_message"
  args := ["time_last_baseline_ms", "rtk_receiver_id", "wn", "tow", "rtk_health", "rtk_rate", "nsats", "baseline_coords_type", "baseline_a_mm", "baseline_b_mm", "baseline_c_mm", "accuracy", "iar_num_hypotheses"]

/-- HC_dialect.py:12338-12355 -/
def encode95 : EncodeDef where
  name := "scaled_imu3_encode"
  params := ["time_boot_ms", "xacc", "yacc", "zacc", "xgyro", "ygyro", "zgyro", "xmag", "ymag", "zmag"]
  defaults := []
  callee := "MAVLink_scaled_imu3_message"
  args := ["time_boot_ms", "xacc", "yacc", "zacc", "xgyro", "ygyro", "zgyro", "xmag", "ymag", "zmag"]

/-- HC_dialect.py:12376-12389 -/
def encode96 : EncodeDef where
  name := "data_transmission_handshake_encode"
  params := ["type", "size", "width", "height", "packets", "payload", "jpg_quality"]
  defaults := []
  callee := "MAVLink_data_transmission_handshake_message"
  args := ["type", "size", "width", "height", "packets", "payload", "jpg_quality"]

/-- HC_dialect.py:12406-12414 -/
def encode97 : EncodeDef where
  name := "encapsulated_data_encode"
  params := ["seqnr", "data"]
  defaults := []
  callee := "MAVLink_encapsulated_data_message"
  args := ["seqnr", "data"]

/-- HC_dialect.py:12426-12440 -/
def encode98 : EncodeDef where
  name := "distance_sensor_encode"
  params := ["time_boot_ms", "min_distance", "max_distance", "current_distance", "type", "id", "orientation", "covariance"]
  defaults := []
  callee := "MAVLink_distance_sensor_message"
  args := ["time_boot_ms", "min_distance", "max_distance", "current_distance", "type", "id", "orientation", "covariance"]

/-- HC_dialect.py:12458-12468 -/
def encode99 : EncodeDef where
  name := "terrain_request_encode"
  params := ["lat", "lon", "grid_spacing", "mask"]
  defaults := []
  callee := "MAVLink_terrain_request_message"
  args := ["lat", "lon", "grid_spacing", "mask"]

/-- HC_dialect.py:12482-12494 -/
def encode100 : EncodeDef where
  name := "terrain_data_encode"
  params := ["lat", "lon", "grid_spacing", "gridbit", "data"]
  defaults := []
  callee := "MAVLink_terrain_data_message"
  args := ["lat", "lon", "grid_spacing", "gridbit", "data"]

/-- HC_dialect.py:12510-12520 -/
def encode101 : EncodeDef where
  name := "terrain_check_encode"
  params := ["lat", "lon"]
  defaults := []
  callee := "MAVLink_terrain_check_message"
  args := ["lat", "lon"]

/-- HC_dialect.py:12534-12547 -/
def encode102 : EncodeDef where
  name := "terrain_report_encode"
  params := ["lat", "lon", "spacing", "terrain_height", "current_height", "pending", "loaded"]
  defaults := []
  callee := "MAVLink_terrain_report_message"
  args := ["lat", "lon", "spacing", "terrain_height", "current_height", "pending", "loaded"]

/-- HC_dialect.py:12564-12574 -/
def encode103 : EncodeDef where
  name := "scaled_pressure2_encode"
  params := ["time_boot_ms", "press_abs", "press_diff", "temperature"]
  defaults := []
  callee := "MAVLink_scaled_pressure2_message"
  args := ["time_boot_ms", "press_abs", "press_diff", "temperature"]

/-- HC_dialect.py:12588-12599 -/
def encode104 : EncodeDef where
  name := "att_pos_mocap_encode"
  params := ["time_usec", "q", "x", "y", "z"]
  defaults := []
  callee := "MAVLink_att_pos_mocap_message"
  args := ["time_usec", "q", "x", "y", "z"]

/-- HC_dialect.py:12614-12625 -/
def encode105 : EncodeDef where
  name := "set_actuator_control_target_encode"
  params := ["time_usec", "group_mlx", "target_system", "target_component", "controls"]
  defaults := []
  callee := "MAVLink_set_actuator_control_target_message"
  args := ["time_usec", "group_mlx", "target_system", "target_component", "controls"]

/-- HC_dialect.py:12640-12649 -/
def encode106 : EncodeDef where
  name := "actuator_control_target_encode"
  params := ["time_usec", "group_mlx", "controls"]
  defaults := []
  callee := "MAVLink_actuator_control_target_message"
  args := ["time_usec", "group_mlx", "controls"]

/-- HC_dialect.py:12662-12675 -/
def encode107 : EncodeDef where
  name := "altitude_encode"
  params := ["time_usec", "altitude_monotonic", "altitude_amsl", "altitude_local", "altitude_relative", "altitude_terrain", "bottom_clearance"]
  defaults := []
  callee := "MAVLink_altitude_message"
  args := ["time_usec", "altitude_monotonic", "altitude_amsl", "altitude_local", "altitude_relative", "altitude_terrain", "bottom_clearance"]

/-- HC_dialect.py:12692-12704 -/
def encode108 : EncodeDef where
  name := "resource_request_encode"
  params := ["request_id", "uri_type", "uri", "transfer_type", "storage"]
  defaults := []
  callee := "MAVLink_resource_request_message"
  args := ["request_id", "uri_type", "uri", "transfer_type", "storage"]

/-- HC_dialect.py:12720-12730 -/
def encode109 : EncodeDef where
  name := "scaled_pressure3_encode"
  params := ["time_boot_ms", "press_abs", "press_diff", "temperature"]
  defaults := []
  callee := "MAVLink_scaled_pressure3_message"
  args := ["time_boot_ms", "press_abs", "press_diff", "temperature"]

/-- HC_dialect.py:12744-12768 -/
def encode110 : EncodeDef where
  name := "control_system_state_encode"
  params := ["time_usec", "x_acc", "y_acc", "z_acc", "x_vel", "y_vel", "z_vel", "x_pos", "y_pos", "z_pos", "airspeed", "vel_variance", "pos_variance", "q", "roll_rate", "pitch_rate", "yaw_rate"]
  defaults := []
  callee := "MAVLink_control_system_state_message"
  args := ["time_usec", "x_acc", "y_acc", "z_acc", "x_vel", "y_vel", "z_vel", "x_pos", "y_pos", "z_pos", "airspeed", "vel_variance", "pos_variance", "q", "roll_rate", "pitch_rate", "yaw_rate"]

/-- HC_dialect.py:12796-12811 -/
def encode111 : EncodeDef where
  name := "battery_status_encode"
  params := ["id", "battery_function", "type", "temperature", "voltages", "current_battery", "current_consumed", "energy_consumed", "battery_remaining"]
  defaults := []
  callee := "MAVLink_battery_status_message"
  args := ["id", "battery_function", "type", "temperature", "voltages", "current_battery", "current_consumed", "energy_consumed", "battery_remaining"]

/-- HC_dialect.py:12830-12848 -/
def encode112 : EncodeDef where
  name := "autopilot_version_encode"
  params := ["capabilities", "main_sw_build_time", "main_sw_version", "mavlink_sw_version", "os_sw_version", "board_version", "main_custom_version", "mavlink_custom_version", "os_custom_version", "vendor_id", "product_id", "uid"]
  defaults := []
  callee := "MAVLink_autopilot_version_message"
  args := ["capabilities", "main_sw_build_time", "main_sw_version", "mavlink_sw_version", "os_sw_version", "board_version", "main_custom_version", "mavlink_custom_version", "os_custom_version", "vendor_id", "product_id", "uid"]

/-- HC_dialect.py:12870-12884 -/
def encode113 : EncodeDef where
  name := "landing_target_encode"
  params := ["time_usec", "target_num", "frame", "angle_x", "angle_y", "distance", "size_x", "size_y"]
  defaults := []
  callee := "MAVLink_landing_target_message"
  args := ["time_usec", "target_num", "frame", "angle_x", "angle_y", "distance", "size_x", "size_y"]

/-- HC_dialect.py:12902-12915 -/
def encode114 : EncodeDef where
  name := "vibration_encode"
  params := ["time_usec", "vibration_x", "vibration_y", "vibration_z", "clipping_0", "clipping_1", "clipping_2"]
  defaults := []
  callee := "MAVLink_vibration_message"
  args := ["time_usec", "vibration_x", "vibration_y", "vibration_z", "clipping_0", "clipping_1", "clipping_2"]

/-- HC_dialect.py:12932-12961 -/
def encode115 : EncodeDef where
  name := "home_position_encode"
  params := ["latitude", "longitude", "altitude", "x", "y", "z", "q", "approach_x", "approach_y", "approach_z"]
  defaults := []
  callee := "MAVLink_home_position_message"
  args := ["latitude", "longitude", "altitude", "x", "y", "z", "q", "approach_x", "approach_y", "approach_z"]

/-- HC_dialect.py:12994-13022 -/
def encode116 : EncodeDef where
  name := "set_home_position_encode"
  params := ["target_system", "latitude", "longitude", "altitude", "x", "y", "z", "q", "approach_x", "approach_y", "approach_z"]
  defaults := []
  callee := "MAVLink_set_home_position_message"
  args := ["target_system", "latitude", "longitude", "altitude", "x", "y", "z", "q", "approach_x", "approach_y", "approach_z"]

/-- HC_dialect.py:13054-13062 -/
def encode117 : EncodeDef where
  name := "message_interval_encode"
  params := ["message_id", "interval_us"]
  defaults := []
  callee := "MAVLink_message_interval_message"
  args := ["message_id", "interval_us"]

/-- HC_dialect.py:13074-13082 -/
def encode118 : EncodeDef where
  name := "extended_sys_state_encode"
  params := ["vtol_state", "landed_state"]
  defaults := []
  callee := "MAVLink_extended_sys_state_message"
  args := ["vtol_state", "landed_state"]

/-- HC_dialect.py:13094-13113 -/
def encode119 : EncodeDef where
  name := "adsb_vehicle_encode"
  params := ["ICAO_address", "lat", "lon", "altitude_type", "altitude", "heading", "hor_velocity", "ver_velocity", "callsign", "emitter_type", "tslc", "flags", "squawk"]
  defaults := []
  callee := "MAVLink_adsb_vehicle_message"
  args := ["ICAO_address", "lat", "lon", "altitude_type", "altitude", "heading", "hor_velocity", "ver_velocity", "callsign", "emitter_type", "tslc", "flags", "squawk"]

/-- HC_dialect.py:13136-13148 -/
def encode120 : EncodeDef where
  name := "v2_extension_encode"
  params := ["target_network", "target_system", "target_component", "message_type", "payload"]
  defaults := []
  callee := "MAVLink_v2_extension_message"
  args := ["target_network", "target_system", "target_component", "message_type", "payload"]

/-- HC_dialect.py:13164-13176 -/
def encode121 : EncodeDef where
  name := "memory_vect_encode"
  params := ["address", "ver", "type", "value"]
  defaults := []
  callee := "MAVLink_memory_vect_message"
  args := ["address", "ver", "type", "value"]

/-- HC_dialect.py:13192-13203 -/
def encode122 : EncodeDef where
  name := "debug_vect_encode"
  params := ["name", "time_usec", "x", "y", "z"]
  defaults := []
  callee := "MAVLink_debug_vect_message"
  args := ["name", "time_usec", "x", "y", "z"]

/-- HC_dialect.py:13218-13230 -/
def encode123 : EncodeDef where
  name := "named_value_float_encode"
  params := ["time_boot_ms", "name", "value"]
  defaults := []
  callee := "MAVLink_named_value_float_message"
  args := ["time_boot_ms", "name", "value"]

/-- HC_dialect.py:13246-13258 -/
def encode124 : EncodeDef where
  name := "named_value_int_encode"
  params := ["time_boot_ms", "name", "value"]
  defaults := []
  callee := "MAVLink_named_value_int_message"
  args := ["time_boot_ms", "name", "value"]

/-- HC_dialect.py:13274-13287 -/
def encode125 : EncodeDef where
  name := "statustext_encode"
  params := ["severity", "text"]
  defaults := []
  callee := "MAVLink_statustext_message"
  args := ["severity", "text"]

/-- HC_dialect.py:13304-13315 -/
def encode126 : EncodeDef where
  name := "debug_encode"
  params := ["time_boot_ms", "ind", "value"]
  defaults := []
  callee := "MAVLink_debug_message"
  args := ["time_boot_ms", "ind", "value"]

/-- HC_dialect.py:13330-13339 -/
def encode127 : EncodeDef where
  name := "altimeter_sensor_encode"
  params := ["time_boot_ms", "Altitude_front", "Altitude_back"]
  defaults := []
  callee := "MAVLink_altimeter_sensor_message"
  args := ["time_boot_ms", "Altitude_front", "Altitude_back"]

/-- HC_dialect.py:13352-13364 -/
def encode128 : EncodeDef where
  name := "scaled_svs_encode"
  params := ["time_boot_ms", "Speed_of_Sound", "Depth", "Temperature", "Status", "Reserved"]
  defaults := []
  callee := "MAVLink_scaled_svs_message"
  args := ["time_boot_ms", "Speed_of_Sound", "Depth", "Temperature", "Status", "Reserved"]

/-- HC_dialect.py:13380-13392 -/
def encode129 : EncodeDef where
  name := "ctd_status_encode"
  params := ["time_boot_ms", "Conductivity", "Depth", "Temperature", "Status", "Reserved"]
  defaults := []
  callee := "MAVLink_ctd_status_message"
  args := ["time_boot_ms", "Conductivity", "Depth", "Temperature", "Status", "Reserved"]

/-- HC_dialect.py:13408-13424 -/
def encode130 : EncodeDef where
  name := "motor_status_encode"
  params := ["time_boot_ms", "motor_num", "rpm", "voltage", "current", "Status", "Fault", "temperature", "pressure"]
  defaults := []
  callee := "MAVLink_motor_status_message"
  args := ["time_boot_ms", "motor_num", "rpm", "voltage", "current", "Status", "Fault", "temperature", "pressure"]

/-- HC_dialect.py:13444-13456 -/
def encode131 : EncodeDef where
  name := "rf_modem_status_encode"
  params := ["time_boot_ms", "Bit_Rate", "Status", "current", "Reserved", "Reserved2"]
  defaults := []
  callee := "MAVLink_rf_modem_status_message"
  args := ["time_boot_ms", "Bit_Rate", "Status", "current", "Reserved", "Reserved2"]

/-- HC_dialect.py:13472-13481 -/
def encode132 : EncodeDef where
  name := "system_onoff_req_encode"
  params := ["time_boot_ms", "status"]
  defaults := []
  callee := "MAVLink_system_onoff_req_message"
  args := ["time_boot_ms", "status"]

/-- HC_dialect.py:13494-13503 -/
def encode133 : EncodeDef where
  name := "system_onoff_status_encode"
  params := ["time_boot_ms", "status"]
  defaults := []
  callee := "MAVLink_system_onoff_status_message"
  args := ["time_boot_ms", "status"]

/-- HC_dialect.py:13516-13528 -/
def encode134 : EncodeDef where
  name := "chamber_status_encode"
  params := ["time_boot_ms", "chamber_num", "pressure", "temperature", "humidity"]
  defaults := []
  callee := "MAVLink_chamber_status_message"
  args := ["time_boot_ms", "chamber_num", "pressure", "temperature", "humidity"]

/-- HC_dialect.py:13544-13561 -/
def encode135 : EncodeDef where
  name := "task_status_encode"
  params := ["taskID", "task_status", "time", "task_time", "task_count", "parse_success_count", "parse_error_count", "interupt_count", "rst_count", "err1", "err2"]
  defaults := []
  callee := "MAVLink_task_status_message"
  args := ["taskID", "task_status", "time", "task_time", "task_count", "parse_success_count", "parse_error_count", "interupt_count", "rst_count", "err1", "err2"]

/-- HC_dialect.py:13582-13615 -/
def encode136 : EncodeDef where
  name := "param_est_test_encode"
  params := ["time_boot_ms_imu", "time_boot_ms_io", "gyro_x", "gyro_y", "gyro_z", "gyro_dot_x", "gyro_dot_y", "gyro_dot_z", "accel_x", "accel_y", "accel_z", "accel_no_g_x", "accel_no_g_y", "accel_no_g_z", "dvl_x", "dvl_y", "dvl_z", "roll", "pitch", "yaw", "motor1_rpm", "motor2_rpm", "motor3_rpm", "motor4_rpm", "motor5_rpm", "motor6_rpm", "motor7_rpm"]
  defaults := []
  callee := "MAVLink_param_est_test_message"
  args := ["time_boot_ms_imu", "time_boot_ms_io", "gyro_x", "gyro_y", "gyro_z", "gyro_dot_x", "gyro_dot_y", "gyro_dot_z", "accel_x", "accel_y", "accel_z", "accel_no_g_x", "accel_no_g_y", "accel_no_g_z", "dvl_x", "dvl_y", "dvl_z", "roll", "pitch", "yaw", "motor1_rpm", "motor2_rpm", "motor3_rpm", "motor4_rpm", "motor5_rpm", "motor6_rpm", "motor7_rpm"]

/-- HC_dialect.py:13652-13660 -/
def encode137 : EncodeDef where
  name := "motor_cmd_encode"
  params := ["mode", "speed"]
  defaults := []
  callee := "MAVLink_motor_cmd_message"
  args := ["mode", "speed"]

/-- HC_dialect.py:13672-13685 -/
def encode138 : EncodeDef where
  name := "bathymetry_encode"
  params := ["time_usec", "depth", "altitude", "distance", "range_from_body", "seabed_phi", "seabed_theta"]
  defaults := []
  callee := "MAVLink_bathymetry_message"
  args := ["time_usec", "depth", "altitude", "distance", "range_from_body", "seabed_phi", "seabed_theta"]

/-- HC_dialect.py:13702-13717 -/
def encode139 : EncodeDef where
  name := "power_consumption_motors_encode"
  params := ["time_boot_ms", "current_ml", "current_mr", "current_p", "current_yb", "current_yf", "current_wl", "current_wr", "battery_voltage"]
  defaults := []
  callee := "MAVLink_power_consumption_motors_message"
  args := ["time_boot_ms", "current_ml", "current_mr", "current_p", "current_yb", "current_yf", "current_wl", "current_wr", "battery_voltage"]

/-- HC_dialect.py:13736-13751 -/
def encode140 : EncodeDef where
  name := "power_consumption_2_encode"
  params := ["time_boot_ms", "current_1", "voltage_1", "current_2", "voltage_2", "current_3", "voltage_3", "current_4", "voltage_4"]
  defaults := []
  callee := "MAVLink_power_consumption_2_message"
  args := ["time_boot_ms", "current_1", "voltage_1", "current_2", "voltage_2", "current_3", "voltage_3", "current_4", "voltage_4"]

/-- HC_dialect.py:13770-13782 -/
def encode141 : EncodeDef where
  name := "system_status_2_encode"
  params := ["time_boot_ms", "hc_mode", "hc_system_status", "hc_err_id", "debug1", "debug2"]
  defaults := []
  callee := "MAVLink_system_status_2_message"
  args := ["time_boot_ms", "hc_mode", "hc_system_status", "hc_err_id", "debug1", "debug2"]

/-- HC_dialect.py:13798-13812 -/
def encode142 : EncodeDef where
  name := "gps_timing_encode"
  params := ["time_boot_ms", "tow_ms", "tow_ns", "accuracy", "local_time_s", "gps_fix", "rtc_month", "rtc_day"]
  defaults := []
  callee := "MAVLink_gps_timing_message"
  args := ["time_boot_ms", "tow_ms", "tow_ns", "accuracy", "local_time_s", "gps_fix", "rtc_month", "rtc_day"]

/-- HC_dialect.py:13830-13839 -/
def encode143 : EncodeDef where
  name := "magnetometer_calibration_encode"
  params := ["time_boot_ms", "bias", "scaling_matrix"]
  defaults := []
  callee := "MAVLink_magnetometer_calibration_message"
  args := ["time_boot_ms", "bias", "scaling_matrix"]

/-- HC_dialect.py:13852-13869 -/
def encode144 : EncodeDef where
  name := "algorithm_status_encode"
  params := ["time_boot_ms", "rate", "nav_type", "external_heading", "calibrated", "reset", "hc_maneuver", "hc_maneuver2", "velocity_inov", "attitude_cov", "pos_cov"]
  defaults := []
  callee := "MAVLink_algorithm_status_message"
  args := ["time_boot_ms", "rate", "nav_type", "external_heading", "calibrated", "reset", "hc_maneuver", "hc_maneuver2", "velocity_inov", "attitude_cov", "pos_cov"]

/-- HC_dialect.py:13890-13911 -/
def encode145 : EncodeDef where
  name := "dvl_bt_raw_encode"
  params := ["time_boot_ms", "v1", "v2", "v3", "v_err", "wm_v1", "wm_v2", "wm_v3", "wm_v4", "range_1", "range_2", "range_3", "range_4", "good_beams_precentege", "ensamble_number"]
  defaults := []
  callee := "MAVLink_dvl_bt_raw_message"
  args := ["time_boot_ms", "v1", "v2", "v3", "v_err", "wm_v1", "wm_v2", "wm_v3", "wm_v4", "range_1", "range_2", "range_3", "range_4", "good_beams_precentege", "ensamble_number"]

/-- HC_dialect.py:13936-13948 -/
def encode146 : EncodeDef where
  name := "dvl_bt_scaled_encode"
  params := ["time_boot_ms", "v1", "v2", "v3", "altitude", "distance"]
  defaults := []
  callee := "MAVLink_dvl_bt_scaled_message"
  args := ["time_boot_ms", "v1", "v2", "v3", "altitude", "distance"]

/-- HC_dialect.py:13964-13995 -/
def encode147 : EncodeDef where
  name := "dvl_bt_highres_encode"
  params := ["time_boot_ms", "V1", "V2", "V3", "V4", "Bt_Dmg_1", "Bt_Dmg_2", "Bt_Dmg_3", "Bt_Dmg_4", "Ref_Frame", "Wm_V1", "Wm_V2", "Wm_V3", "Wm_V4", "Svs", "Slant_range", "Axes_delta_range", "Vertical_range", "Percent_good_4bm", "Percent_good_12bm", "Percent_good_34bm", "Bm_1_raw_range", "Bm_2_raw_range", "Bm_3_raw_range", "Bm_4_raw_range"]
  defaults := []
  callee := "MAVLink_dvl_bt_highres_message"
  args := ["time_boot_ms", "V1", "V2", "V3", "V4", "Bt_Dmg_1", "Bt_Dmg_2", "Bt_Dmg_3", "Bt_Dmg_4", "Ref_Frame", "Wm_V1", "Wm_V2", "Wm_V3", "Wm_V4", "Svs", "Slant_range", "Axes_delta_range", "Vertical_range", "Percent_good_4bm", "Percent_good_12bm", "Percent_good_34bm", "Bm_1_raw_range", "Bm_2_raw_range", "Bm_3_raw_range", "Bm_4_raw_range"]

/-- HC_dialect.py:14030-14055 -/
def encode148 : EncodeDef where
  name := "dvl_wp_raw_encode"
  params := ["time_boot_ms", "Depth_Cell_ID", "v1", "v2", "v3", "v_err", "Depth_Correlation_1", "Depth_Correlation_2", "Depth_Correlation_3", "Depth_Correlation_4", "Depth_Echo_Intensity_1", "Depth_Echo_Intensity_2", "Depth_Echo_Intensity_3", "Depth_Echo_Intensity_4", "Percent_Good_1", "Percent_Good_2", "Percent_Good_3", "Percent_Good_4", "status"]
  defaults := []
  callee := "MAVLink_dvl_wp_raw_message"
  args := ["time_boot_ms", "Depth_Cell_ID", "v1", "v2", "v3", "v_err", "Depth_Correlation_1", "Depth_Correlation_2", "Depth_Correlation_3", "Depth_Correlation_4", "Depth_Echo_Intensity_1", "Depth_Echo_Intensity_2", "Depth_Echo_Intensity_3", "Depth_Echo_Intensity_4", "Percent_Good_1", "Percent_Good_2", "Percent_Good_3", "Percent_Good_4", "status"]

/-- HC_dialect.py:14084-14098 -/
def encode149 : EncodeDef where
  name := "time_date_info_encode"
  params := ["time_boot_ms", "year", "month", "day", "hours", "minutes", "seconds", "millisec"]
  defaults := []
  callee := "MAVLink_time_date_info_message"
  args := ["time_boot_ms", "year", "month", "day", "hours", "minutes", "seconds", "millisec"]

/-- HC_dialect.py:14116-14125 -/
def encode150 : EncodeDef where
  name := "pinger_data_encode"
  params := ["time_boot_ms", "range", "azimuth"]
  defaults := []
  callee := "MAVLink_pinger_data_message"
  args := ["time_boot_ms", "range", "azimuth"]

/-- HC_dialect.py:14138-14150 -/
def encode151 : EncodeDef where
  name := "hc_acoustic_pos_encode"
  params := ["time_boot_ms", "range", "azimuth", "lat_1", "lon_1", "tow_1"]
  defaults := []
  callee := "MAVLink_hc_acoustic_pos_message"
  args := ["time_boot_ms", "range", "azimuth", "lat_1", "lon_1", "tow_1"]

/-- HC_dialect.py:14166-14179 -/
def encode152 : EncodeDef where
  name := "debug_msg_1_encode"
  params := ["time_boot_ms", "debug_1_1", "debug_1_2", "debug_1_3", "debug_1_4", "debug_1_5", "debug_1_6"]
  defaults := []
  callee := "MAVLink_debug_msg_1_message"
  args := ["time_boot_ms", "debug_1_1", "debug_1_2", "debug_1_3", "debug_1_4", "debug_1_5", "debug_1_6"]

/-- HC_dialect.py:14196-14211 -/
def encode153 : EncodeDef where
  name := "hc_acoustic_channel_encode"
  params := ["time_boot_ms", "mpd", "psnr", "agc", "spd", "crc_pass", "ccerr", "source", "destination"]
  defaults := []
  callee := "MAVLink_hc_acoustic_channel_message"
  args := ["time_boot_ms", "mpd", "psnr", "agc", "spd", "crc_pass", "ccerr", "source", "destination"]

/-- HC_dialect.py:14230-14241 -/
def encode154 : EncodeDef where
  name := "acoustic_transmission_log_encode"
  params := ["time_boot_ms", "tow_ms", "count", "slot_num", "data"]
  defaults := []
  callee := "MAVLink_acoustic_transmission_log_message"
  args := ["time_boot_ms", "tow_ms", "count", "slot_num", "data"]

/-- HC_dialect.py:8974-8990 -/
def send0 : SendDef where
  name := "heartbeat_send"
  params := ["type", "autopilot", "base_mode", "custom_mode", "system_status", "mavlink_version", "force_mavlink1"]
  defaults := [("mavlink_version", 3), ("force_mavlink1", 0)]
  encode := "heartbeat_encode"
  args := ["type", "autopilot", "base_mode", "custom_mode", "system_status", "mavlink_version"]

/-- HC_dialect.py:9031-9068 -/
def send1 : SendDef where
  name := "sys_status_send"
  params := ["onboard_control_sensors_present", "onboard_control_sensors_enabled", "onboard_control_sensors_health", "load", "voltage_battery", "current_battery", "battery_remaining", "drop_rate_comm", "errors_comm", "errors_count1", "errors_count2", "errors_count3", "errors_count4", "force_mavlink1"]
  defaults := [("force_mavlink1", 0)]
  encode := "sys_status_encode"
  args := ["onboard_control_sensors_present", "onboard_control_sensors_enabled", "onboard_control_sensors_health", "load", "voltage_battery", "current_battery", "battery_remaining", "drop_rate_comm", "errors_comm", "errors_count1", "errors_count2", "errors_count3", "errors_count4"]

/-- HC_dialect.py:9081-9090 -/
def send2 : SendDef where
  name := "system_time_send"
  params := ["time_unix_usec", "time_boot_ms", "force_mavlink1"]
  defaults := [("force_mavlink1", 0)]
  encode := "system_time_encode"
  args := ["time_unix_usec", "time_boot_ms"]

/-- HC_dialect.py:9106-9118 -/
def send3 : SendDef where
  name := "ping_send"
  params := ["time_usec", "seq", "target_system", "target_component", "force_mavlink1"]
  defaults := [("force_mavlink1", 0)]
  encode := "ping_encode"
  args := ["time_usec", "seq", "target_system", "target_component"]

/-- HC_dialect.py:9132-9142 -/
def send4 : SendDef where
  name := "change_operator_control_send"
  params := ["target_system", "control_request", "version", "passkey", "force_mavlink1"]
  defaults := [("force_mavlink1", 0)]
  encode := "change_operator_control_encode"
  args := ["target_system", "control_request", "version", "passkey"]

/-- HC_dialect.py:9155-9164 -/
def send5 : SendDef where
  name := "change_operator_control_ack_send"
  params := ["gcs_system_id", "control_request", "ack", "force_mavlink1"]
  defaults := [("force_mavlink1", 0)]
  encode := "change_operator_control_ack_encode"
  args := ["gcs_system_id", "control_request", "ack"]

/-- HC_dialect.py:9178-9188 -/
def send6 : SendDef where
  name := "auth_key_send"
  params := ["key", "force_mavlink1"]
  defaults := [("force_mavlink1", 0)]
  encode := "auth_key_encode"
  args := ["key"]

/-- HC_dialect.py:9205-9218 -/
def send7 : SendDef where
  name := "set_mode_send"
  params := ["target_system", "base_mode", "custom_mode", "force_mavlink1"]
  defaults := [("force_mavlink1", 0)]
  encode := "set_mode_encode"
  args := ["target_system", "base_mode", "custom_mode"]

/-- HC_dialect.py:9240-9258 -/
def send8 : SendDef where
  name := "param_request_read_send"
  params := ["target_system", "target_component", "param_id", "param_index", "force_mavlink1"]
  defaults := [("force_mavlink1", 0)]
  encode := "param_request_read_encode"
  args := ["target_system", "target_component", "param_id", "param_index"]

/-- HC_dialect.py:9271-9280 -/
def send9 : SendDef where
  name := "param_request_list_send"
  params := ["target_system", "target_component", "force_mavlink1"]
  defaults := [("force_mavlink1", 0)]
  encode := "param_request_list_encode"
  args := ["target_system", "target_component"]

/-- HC_dialect.py:9298-9312 -/
def send10 : SendDef where
  name := "param_value_send"
  params := ["param_id", "param_value", "param_type", "param_count", "param_index", "force_mavlink1"]
  defaults := [("force_mavlink1", 0)]
  encode := "param_value_encode"
  args := ["param_id", "param_value", "param_type", "param_count", "param_index"]

/-- HC_dialect.py:9336-9356 -/
def send11 : SendDef where
  name := "param_set_send"
  params := ["target_system", "target_component", "param_id", "param_value", "param_type", "force_mavlink1"]
  defaults := [("force_mavlink1", 0)]
  encode := "param_set_encode"
  args := ["target_system", "target_component", "param_id", "param_value", "param_type"]

/-- HC_dialect.py:9381-9402 -/
def send12 : SendDef where
  name := "gps_raw_int_send"
  params := ["time_usec", "fix_type", "lat", "lon", "alt", "eph", "epv", "vel", "cog", "satellites_visible", "force_mavlink1"]
  defaults := [("force_mavlink1", 0)]
  encode := "gps_raw_int_encode"
  args := ["time_usec", "fix_type", "lat", "lon", "alt", "eph", "epv", "vel", "cog", "satellites_visible"]

/-- HC_dialect.py:9422-9438 -/
def send13 : SendDef where
  name := "gps_status_send"
  params := ["satellites_visible", "satellite_prn", "satellite_used", "satellite_elevation", "satellite_azimuth", "satellite_snr", "force_mavlink1"]
  defaults := [("force_mavlink1", 0)]
  encode := "gps_status_encode"
  args := ["satellites_visible", "satellite_prn", "satellite_used", "satellite_elevation", "satellite_azimuth", "satellite_snr"]

/-- HC_dialect.py:9460-9478 -/
def send14 : SendDef where
  name := "scaled_imu_send"
  params := ["time_boot_ms", "xacc", "yacc", "zacc", "xgyro", "ygyro", "zgyro", "xmag", "ymag", "zmag", "force_mavlink1"]
  defaults := [("force_mavlink1", 0)]
  encode := "scaled_imu_encode"
  args := ["time_boot_ms", "xacc", "yacc", "zacc", "xgyro", "ygyro", "zgyro", "xmag", "ymag", "zmag"]

/-- HC_dialect.py:9500-9518 -/
def send15 : SendDef where
  name := "raw_imu_send"
  params := ["time_usec", "xacc", "yacc", "zacc", "xgyro", "ygyro", "zgyro", "xmag", "ymag", "zmag", "force_mavlink1"]
  defaults := [("force_mavlink1", 0)]
  encode := "raw_imu_encode"
  args := ["time_usec", "xacc", "yacc", "zacc", "xgyro", "ygyro", "zgyro", "xmag", "ymag", "zmag"]

/-- HC_dialect.py:9535-9548 -/
def send16 : SendDef where
  name := "raw_pressure_send"
  params := ["time_usec", "press_abs", "press_diff1", "press_diff2", "temperature", "force_mavlink1"]
  defaults := [("force_mavlink1", 0)]
  encode := "raw_pressure_encode"
  args := ["time_usec", "press_abs", "press_diff1", "press_diff2", "temperature"]

/-- HC_dialect.py:9564-9576 -/
def send17 : SendDef where
  name := "scaled_pressure_send"
  params := ["time_boot_ms", "press_abs", "press_diff", "temperature", "force_mavlink1"]
  defaults := [("force_mavlink1", 0)]
  encode := "scaled_pressure_encode"
  args := ["time_boot_ms", "press_abs", "press_diff", "temperature"]

/-- HC_dialect.py:9594-9608 -/
def send18 : SendDef where
  name := "attitude_send"
  params := ["time_boot_ms", "roll", "pitch", "yaw", "rollspeed", "pitchspeed", "yawspeed", "force_mavlink1"]
  defaults := [("force_mavlink1", 0)]
  encode := "attitude_encode"
  args := ["time_boot_ms", "roll", "pitch", "yaw", "rollspeed", "pitchspeed", "yawspeed"]

/-- HC_dialect.py:9629-9646 -/
def send19 : SendDef where
  name := "attitude_quaternion_send"
  params := ["time_boot_ms", "q1", "q2", "q3", "q4", "rollspeed", "pitchspeed", "yawspeed", "force_mavlink1"]
  defaults := [("force_mavlink1", 0)]
  encode := "attitude_quaternion_encode"
  args := ["time_boot_ms", "q1", "q2", "q3", "q4", "rollspeed", "pitchspeed", "yawspeed"]

/-- HC_dialect.py:9666-9682 -/
def send20 : SendDef where
  name := "local_position_ned_send"
  params := ["time_boot_ms", "x", "y", "z", "vx", "vy", "vz", "force_mavlink1"]
  defaults := [("force_mavlink1", 0)]
  encode := "local_position_ned_encode"
  args := ["time_boot_ms", "x", "y", "z", "vx", "vy", "vz"]

/-- HC_dialect.py:9706-9726 -/
def send21 : SendDef where
  name := "global_position_int_send"
  params := ["time_boot_ms", "lat", "lon", "alt", "relative_alt", "bottom_clearnce", "depth", "vx", "vy", "vz", "hdg", "force_mavlink1"]
  defaults := [("force_mavlink1", 0)]
  encode := "global_position_int_encode"
  args := ["time_boot_ms", "lat", "lon", "alt", "relative_alt", "bottom_clearnce", "depth", "vx", "vy", "vz", "hdg"]

/-- HC_dialect.py:9749-9768 -/
def send22 : SendDef where
  name := "rc_channels_scaled_send"
  params := ["time_boot_ms", "port", "chan1_scaled", "chan2_scaled", "chan3_scaled", "chan4_scaled", "chan5_scaled", "chan6_scaled", "chan7_scaled", "chan8_scaled", "rssi", "force_mavlink1"]
  defaults := [("force_mavlink1", 0)]
  encode := "rc_channels_scaled_encode"
  args := ["time_boot_ms", "port", "chan1_scaled", "chan2_scaled", "chan3_scaled", "chan4_scaled", "chan5_scaled", "chan6_scaled", "chan7_scaled", "chan8_scaled", "rssi"]

/-- HC_dialect.py:9792-9812 -/
def send23 : SendDef where
  name := "rc_channels_raw_send"
  params := ["time_boot_ms", "port", "chan1_raw", "chan2_raw", "chan3_raw", "chan4_raw", "chan5_raw", "chan6_raw", "chan7_raw", "chan8_raw", "rssi", "force_mavlink1"]
  defaults := [("force_mavlink1", 0)]
  encode := "rc_channels_raw_encode"
  args := ["time_boot_ms", "port", "chan1_raw", "chan2_raw", "chan3_raw", "chan4_raw", "chan5_raw", "chan6_raw", "chan7_raw", "chan8_raw", "rssi"]

/-- HC_dialect.py:9835-9854 -/
def send24 : SendDef where
  name := "servo_output_raw_send"
  params := ["time_usec", "port", "servo1_raw", "servo2_raw", "servo3_raw", "servo4_raw", "servo5_raw", "servo6_raw", "servo7_raw", "servo8_raw", "force_mavlink1"]
  defaults := [("force_mavlink1", 0)]
  encode := "servo_output_raw_encode"
  args := ["time_usec", "port", "servo1_raw", "servo2_raw", "servo3_raw", "servo4_raw", "servo5_raw", "servo6_raw", "servo7_raw", "servo8_raw"]

/-- HC_dialect.py:9871-9884 -/
def send25 : SendDef where
  name := "mission_request_partial_list_send"
  params := ["target_system", "target_component", "start_index", "end_index", "force_mavlink1"]
  defaults := [("force_mavlink1", 0)]
  encode := "mission_request_partial_list_encode"
  args := ["target_system", "target_component", "start_index", "end_index"]

/-- HC_dialect.py:9901-9914 -/
def send26 : SendDef where
  name := "mission_write_partial_list_send"
  params := ["target_system", "target_component", "start_index", "end_index", "force_mavlink1"]
  defaults := [("force_mavlink1", 0)]
  encode := "mission_write_partial_list_encode"
  args := ["target_system", "target_component", "start_index", "end_index"]

/-- HC_dialect.py:9944-9970 -/
def send27 : SendDef where
  name := "mission_item_send"
  params := ["target_system", "target_component", "seq", "frame", "command", "current", "autocontinue", "param1", "param2", "param3", "param4", "x", "y", "z", "force_mavlink1"]
  defaults := [("force_mavlink1", 0)]
  encode := "mission_item_encode"
  args := ["target_system", "target_component", "seq", "frame", "command", "current", "autocontinue", "param1", "param2", "param3", "param4", "x", "y", "z"]

/-- HC_dialect.py:9986-9998 -/
def send28 : SendDef where
  name := "mission_request_send"
  params := ["target_system", "target_component", "seq", "force_mavlink1"]
  defaults := [("force_mavlink1", 0)]
  encode := "mission_request_encode"
  args := ["target_system", "target_component", "seq"]

/-- HC_dialect.py:10014-10026 -/
def send29 : SendDef where
  name := "mission_set_current_send"
  params := ["target_system", "target_component", "seq", "force_mavlink1"]
  defaults := [("force_mavlink1", 0)]
  encode := "mission_set_current_encode"
  args := ["target_system", "target_component", "seq"]

/-- HC_dialect.py:10039-10048 -/
def send30 : SendDef where
  name := "mission_current_send"
  params := ["seq", "force_mavlink1"]
  defaults := [("force_mavlink1", 0)]
  encode := "mission_current_encode"
  args := ["seq"]

/-- HC_dialect.py:10060-10068 -/
def send31 : SendDef where
  name := "mission_request_list_send"
  params := ["target_system", "target_component", "force_mavlink1"]
  defaults := [("force_mavlink1", 0)]
  encode := "mission_request_list_encode"
  args := ["target_system", "target_component"]

/-- HC_dialect.py:10084-10096 -/
def send32 : SendDef where
  name := "mission_count_send"
  params := ["target_system", "target_component", "count", "force_mavlink1"]
  defaults := [("force_mavlink1", 0)]
  encode := "mission_count_encode"
  args := ["target_system", "target_component", "count"]

/-- HC_dialect.py:10108-10116 -/
def send33 : SendDef where
  name := "mission_clear_all_send"
  params := ["target_system", "target_component", "force_mavlink1"]
  defaults := [("force_mavlink1", 0)]
  encode := "mission_clear_all_encode"
  args := ["target_system", "target_component"]

/-- HC_dialect.py:10130-10140 -/
def send34 : SendDef where
  name := "mission_item_reached_send"
  params := ["seq", "force_mavlink1"]
  defaults := [("force_mavlink1", 0)]
  encode := "mission_item_reached_encode"
  args := ["seq"]

/-- HC_dialect.py:10155-10166 -/
def send35 : SendDef where
  name := "mission_ack_send"
  params := ["target_system", "target_component", "type", "force_mavlink1"]
  defaults := [("force_mavlink1", 0)]
  encode := "mission_ack_encode"
  args := ["target_system", "target_component", "type"]

/-- HC_dialect.py:10184-10198 -/
def send36 : SendDef where
  name := "set_gps_global_origin_send"
  params := ["target_system", "latitude", "longitude", "altitude", "force_mavlink1"]
  defaults := [("force_mavlink1", 0)]
  encode := "set_gps_global_origin_encode"
  args := ["target_system", "latitude", "longitude", "altitude"]

/-- HC_dialect.py:10212-10222 -/
def send37 : SendDef where
  name := "gps_global_origin_send"
  params := ["latitude", "longitude", "altitude", "force_mavlink1"]
  defaults := [("force_mavlink1", 0)]
  encode := "gps_global_origin_encode"
  args := ["latitude", "longitude", "altitude"]

/-- HC_dialect.py:10242-10258 -/
def send38 : SendDef where
  name := "param_map_rc_send"
  params := ["target_system", "target_component", "param_id", "param_index", "parameter_rc_channel_index", "param_value0", "scale", "param_value_min", "param_value_max", "force_mavlink1"]
  defaults := [("force_mavlink1", 0)]
  encode := "param_map_rc_encode"
  args := ["target_system", "target_component", "param_id", "param_index", "parameter_rc_channel_index", "param_value0", "scale", "param_value_min", "param_value_max"]

/-- HC_dialect.py:10281-10300 -/
def send39 : SendDef where
  name := "safety_set_allowed_area_send"
  params := ["target_system", "target_component", "frame", "p1x", "p1y", "p1z", "p2x", "p2y", "p2z", "force_mavlink1"]
  defaults := [("force_mavlink1", 0)]
  encode := "safety_set_allowed_area_encode"
  args := ["target_system", "target_component", "frame", "p1x", "p1y", "p1z", "p2x", "p2y", "p2z"]

/-- HC_dialect.py:10317-10330 -/
def send40 : SendDef where
  name := "safety_allowed_area_send"
  params := ["frame", "p1x", "p1y", "p1z", "p2x", "p2y", "p2z", "force_mavlink1"]
  defaults := [("force_mavlink1", 0)]
  encode := "safety_allowed_area_encode"
  args := ["frame", "p1x", "p1y", "p1z", "p2x", "p2y", "p2z"]

/-- HC_dialect.py:10349-10364 -/
def send41 : SendDef where
  name := "attitude_quaternion_cov_send"
  params := ["time_boot_ms", "q", "rollspeed", "pitchspeed", "yawspeed", "covariance", "force_mavlink1"]
  defaults := [("force_mavlink1", 0)]
  encode := "attitude_quaternion_cov_encode"
  args := ["time_boot_ms", "q", "rollspeed", "pitchspeed", "yawspeed", "covariance"]

/-- HC_dialect.py:10385-10402 -/
def send42 : SendDef where
  name := "nav_controller_output_send"
  params := ["nav_roll", "nav_pitch", "nav_bearing", "target_bearing", "wp_dist", "alt_error", "aspd_error", "xtrack_error", "force_mavlink1"]
  defaults := [("force_mavlink1", 0)]
  encode := "nav_controller_output_encode"
  args := ["nav_roll", "nav_pitch", "nav_bearing", "target_bearing", "wp_dist", "alt_error", "aspd_error", "xtrack_error"]

/-- HC_dialect.py:10430-10454 -/
def send43 : SendDef where
  name := "global_position_int_cov_send"
  params := ["time_boot_ms", "time_utc", "estimator_type", "lat", "lon", "alt", "relative_alt", "vx", "vy", "vz", "covariance", "force_mavlink1"]
  defaults := [("force_mavlink1", 0)]
  encode := "global_position_int_cov_encode"
  args := ["time_boot_ms", "time_utc", "estimator_type", "lat", "lon", "alt", "relative_alt", "vx", "vy", "vz", "covariance"]

/-- HC_dialect.py:10480-10502 -/
def send44 : SendDef where
  name := "local_position_ned_cov_send"
  params := ["time_boot_ms", "time_utc", "estimator_type", "x", "y", "z", "vx", "vy", "vz", "ax", "ay", "az", "covariance", "force_mavlink1"]
  defaults := [("force_mavlink1", 0)]
  encode := "local_position_ned_cov_encode"
  args := ["time_boot_ms", "time_utc", "estimator_type", "x", "y", "z", "vx", "vy", "vz", "ax", "ay", "az", "covariance"]

/-- HC_dialect.py:10536-10566 -/
def send45 : SendDef where
  name := "rc_channels_send"
  params := ["time_boot_ms", "chancount", "chan1_raw", "chan2_raw", "chan3_raw", "chan4_raw", "chan5_raw", "chan6_raw", "chan7_raw", "chan8_raw", "chan9_raw", "chan10_raw", "chan11_raw", "chan12_raw", "chan13_raw", "chan14_raw", "chan15_raw", "chan16_raw", "chan17_raw", "chan18_raw", "rssi", "force_mavlink1"]
  defaults := [("force_mavlink1", 0)]
  encode := "rc_channels_encode"
  args := ["time_boot_ms", "chancount", "chan1_raw", "chan2_raw", "chan3_raw", "chan4_raw", "chan5_raw", "chan6_raw", "chan7_raw", "chan8_raw", "chan9_raw", "chan10_raw", "chan11_raw", "chan12_raw", "chan13_raw", "chan14_raw", "chan15_raw", "chan16_raw", "chan17_raw", "chan18_raw", "rssi"]

/-- HC_dialect.py:10581-10592 -/
def send46 : SendDef where
  name := "request_data_stream_send"
  params := ["target_system", "target_component", "req_stream_id", "req_message_rate", "start_stop", "force_mavlink1"]
  defaults := [("force_mavlink1", 0)]
  encode := "request_data_stream_encode"
  args := ["target_system", "target_component", "req_stream_id", "req_message_rate", "start_stop"]

/-- HC_dialect.py:10605-10614 -/
def send47 : SendDef where
  name := "data_stream_send"
  params := ["stream_id", "message_rate", "on_off", "force_mavlink1"]
  defaults := [("force_mavlink1", 0)]
  encode := "data_stream_encode"
  args := ["stream_id", "message_rate", "on_off"]

/-- HC_dialect.py:10634-10650 -/
def send48 : SendDef where
  name := "manual_control_send"
  params := ["target", "x", "y", "z", "r", "buttons", "force_mavlink1"]
  defaults := [("force_mavlink1", 0)]
  encode := "manual_control_encode"
  args := ["target", "x", "y", "z", "r", "buttons"]

/-- HC_dialect.py:10677-10700 -/
def send49 : SendDef where
  name := "rc_channels_override_send"
  params := ["target_system", "target_component", "chan1_raw", "chan2_raw", "chan3_raw", "chan4_raw", "chan5_raw", "chan6_raw", "chan7_raw", "chan8_raw", "force_mavlink1"]
  defaults := [("force_mavlink1", 0)]
  encode := "rc_channels_override_encode"
  args := ["target_system", "target_component", "chan1_raw", "chan2_raw", "chan3_raw", "chan4_raw", "chan5_raw", "chan6_raw", "chan7_raw", "chan8_raw"]

/-- HC_dialect.py:10730-10756 -/
def send50 : SendDef where
  name := "mission_item_int_send"
  params := ["target_system", "target_component", "seq", "frame", "command", "current", "autocontinue", "param1", "param2", "param3", "param4", "x", "y", "z", "force_mavlink1"]
  defaults := [("force_mavlink1", 0)]
  encode := "mission_item_int_encode"
  args := ["target_system", "target_component", "seq", "frame", "command", "current", "autocontinue", "param1", "param2", "param3", "param4", "x", "y", "z"]

/-- HC_dialect.py:10772-10784 -/
def send51 : SendDef where
  name := "vfr_hud_send"
  params := ["airspeed", "groundspeed", "heading", "throttle", "alt", "climb", "force_mavlink1"]
  defaults := [("force_mavlink1", 0)]
  encode := "vfr_hud_encode"
  args := ["airspeed", "groundspeed", "heading", "throttle", "alt", "climb"]

/-- HC_dialect.py:10808-10828 -/
def send52 : SendDef where
  name := "command_int_send"
  params := ["target_system", "target_component", "frame", "command", "current", "autocontinue", "param1", "param2", "param3", "param4", "x", "y", "z", "force_mavlink1"]
  defaults := [("force_mavlink1", 0)]
  encode := "command_int_encode"
  args := ["target_system", "target_component", "frame", "command", "current", "autocontinue", "param1", "param2", "param3", "param4", "x", "y", "z"]

/-- HC_dialect.py:10849-10866 -/
def send53 : SendDef where
  name := "command_long_send"
  params := ["target_system", "target_component", "command", "confirmation", "param1", "param2", "param3", "param4", "param5", "param6", "param7", "force_mavlink1"]
  defaults := [("force_mavlink1", 0)]
  encode := "command_long_encode"
  args := ["target_system", "target_component", "command", "confirmation", "param1", "param2", "param3", "param4", "param5", "param6", "param7"]

/-- HC_dialect.py:10879-10888 -/
def send54 : SendDef where
  name := "command_ack_send"
  params := ["command", "result", "force_mavlink1"]
  defaults := [("force_mavlink1", 0)]
  encode := "command_ack_encode"
  args := ["command", "result"]

/-- HC_dialect.py:10905-10918 -/
def send55 : SendDef where
  name := "manual_setpoint_send"
  params := ["time_boot_ms", "roll", "pitch", "yaw", "thrust", "mode_switch", "manual_override_switch", "force_mavlink1"]
  defaults := [("force_mavlink1", 0)]
  encode := "manual_setpoint_encode"
  args := ["time_boot_ms", "roll", "pitch", "yaw", "thrust", "mode_switch", "manual_override_switch"]

/-- HC_dialect.py:10937-10952 -/
def send56 : SendDef where
  name := "set_attitude_target_send"
  params := ["time_boot_ms", "target_system", "target_component", "type_mask", "q", "body_roll_rate", "body_pitch_rate", "body_yaw_rate", "thrust", "force_mavlink1"]
  defaults := [("force_mavlink1", 0)]
  encode := "set_attitude_target_encode"
  args := ["time_boot_ms", "target_system", "target_component", "type_mask", "q", "body_roll_rate", "body_pitch_rate", "body_yaw_rate", "thrust"]

/-- HC_dialect.py:10969-10982 -/
def send57 : SendDef where
  name := "attitude_target_send"
  params := ["time_boot_ms", "type_mask", "q", "body_roll_rate", "body_pitch_rate", "body_yaw_rate", "thrust", "force_mavlink1"]
  defaults := [("force_mavlink1", 0)]
  encode := "attitude_target_encode"
  args := ["time_boot_ms", "type_mask", "q", "body_roll_rate", "body_pitch_rate", "body_yaw_rate", "thrust"]

/-- HC_dialect.py:11009-11032 -/
def send58 : SendDef where
  name := "set_position_target_local_ned_send"
  params := ["time_boot_ms", "target_system", "target_component", "coordinate_frame", "type_mask", "x", "y", "z", "vx", "vy", "vz", "afx", "afy", "afz", "yaw", "yaw_rate", "force_mavlink1"]
  defaults := [("force_mavlink1", 0)]
  encode := "set_position_target_local_ned_encode"
  args := ["time_boot_ms", "target_system", "target_component", "coordinate_frame", "type_mask", "x", "y", "z", "vx", "vy", "vz", "afx", "afy", "afz", "yaw", "yaw_rate"]

/-- HC_dialect.py:11057-11078 -/
def send59 : SendDef where
  name := "position_target_local_ned_send"
  params := ["time_boot_ms", "coordinate_frame", "type_mask", "x", "y", "z", "vx", "vy", "vz", "afx", "afy", "afz", "yaw", "yaw_rate", "force_mavlink1"]
  defaults := [("force_mavlink1", 0)]
  encode := "position_target_local_ned_encode"
  args := ["time_boot_ms", "coordinate_frame", "type_mask", "x", "y", "z", "vx", "vy", "vz", "afx", "afy", "afz", "yaw", "yaw_rate"]

/-- HC_dialect.py:11105-11128 -/
def send60 : SendDef where
  name := "set_position_target_global_int_send"
  params := ["time_boot_ms", "target_system", "target_component", "coordinate_frame", "type_mask", "lat_int", "lon_int", "alt", "vx", "vy", "vz", "afx", "afy", "afz", "yaw", "yaw_rate", "force_mavlink1"]
  defaults := [("force_mavlink1", 0)]
  encode := "set_position_target_global_int_encode"
  args := ["time_boot_ms", "target_system", "target_component", "coordinate_frame", "type_mask", "lat_int", "lon_int", "alt", "vx", "vy", "vz", "afx", "afy", "afz", "yaw", "yaw_rate"]

/-- HC_dialect.py:11153-11174 -/
def send61 : SendDef where
  name := "position_target_global_int_send"
  params := ["time_boot_ms", "coordinate_frame", "type_mask", "lat_int", "lon_int", "alt", "vx", "vy", "vz", "afx", "afy", "afz", "yaw", "yaw_rate", "force_mavlink1"]
  defaults := [("force_mavlink1", 0)]
  encode := "position_target_global_int_encode"
  args := ["time_boot_ms", "coordinate_frame", "type_mask", "lat_int", "lon_int", "alt", "vx", "vy", "vz", "afx", "afy", "afz", "yaw", "yaw_rate"]

/-- HC_dialect.py:11195-11212 -/
def send62 : SendDef where
  name := "local_position_ned_system_global_offset_send"
  params := ["time_boot_ms", "x", "y", "z", "roll", "pitch", "yaw", "force_mavlink1"]
  defaults := [("force_mavlink1", 0)]
  encode := "local_position_ned_system_global_offset_encode"
  args := ["time_boot_ms", "x", "y", "z", "roll", "pitch", "yaw"]

/-- HC_dialect.py:11242-11268 -/
def send63 : SendDef where
  name := "hil_state_send"
  params := ["time_usec", "roll", "pitch", "yaw", "rollspeed", "pitchspeed", "yawspeed", "lat", "lon", "alt", "vx", "vy", "vz", "xacc", "yacc", "zacc", "force_mavlink1"]
  defaults := [("force_mavlink1", 0)]
  encode := "hil_state_encode"
  args := ["time_usec", "roll", "pitch", "yaw", "rollspeed", "pitchspeed", "yawspeed", "lat", "lon", "alt", "vx", "vy", "vz", "xacc", "yacc", "zacc"]

/-- HC_dialect.py:11290-11308 -/
def send64 : SendDef where
  name := "hil_controls_send"
  params := ["time_usec", "roll_ailerons", "pitch_elevator", "yaw_rudder", "throttle", "aux1", "aux2", "aux3", "aux4", "mode", "nav_mode", "force_mavlink1"]
  defaults := [("force_mavlink1", 0)]
  encode := "hil_controls_encode"
  args := ["time_usec", "roll_ailerons", "pitch_elevator", "yaw_rudder", "throttle", "aux1", "aux2", "aux3", "aux4", "mode", "nav_mode"]

/-- HC_dialect.py:11336-11360 -/
def send65 : SendDef where
  name := "hil_rc_inputs_raw_send"
  params := ["time_usec", "chan1_raw", "chan2_raw", "chan3_raw", "chan4_raw", "chan5_raw", "chan6_raw", "chan7_raw", "chan8_raw", "chan9_raw", "chan10_raw", "chan11_raw", "chan12_raw", "rssi", "force_mavlink1"]
  defaults := [("force_mavlink1", 0)]
  encode := "hil_rc_inputs_raw_encode"
  args := ["time_usec", "chan1_raw", "chan2_raw", "chan3_raw", "chan4_raw", "chan5_raw", "chan6_raw", "chan7_raw", "chan8_raw", "chan9_raw", "chan10_raw", "chan11_raw", "chan12_raw", "rssi"]

/-- HC_dialect.py:11378-11392 -/
def send66 : SendDef where
  name := "optical_flow_send"
  params := ["time_usec", "sensor_id", "flow_x", "flow_y", "flow_comp_m_x", "flow_comp_m_y", "quality", "ground_distance", "force_mavlink1"]
  defaults := [("force_mavlink1", 0)]
  encode := "optical_flow_encode"
  args := ["time_usec", "sensor_id", "flow_x", "flow_y", "flow_comp_m_x", "flow_comp_m_y", "quality", "ground_distance"]

/-- HC_dialect.py:11409-11422 -/
def send67 : SendDef where
  name := "global_vision_position_estimate_send"
  params := ["usec", "x", "y", "z", "roll", "pitch", "yaw", "force_mavlink1"]
  defaults := [("force_mavlink1", 0)]
  encode := "global_vision_position_estimate_encode"
  args := ["usec", "x", "y", "z", "roll", "pitch", "yaw"]

/-- HC_dialect.py:11439-11452 -/
def send68 : SendDef where
  name := "vision_position_estimate_send"
  params := ["usec", "x", "y", "z", "roll", "pitch", "yaw", "force_mavlink1"]
  defaults := [("force_mavlink1", 0)]
  encode := "vision_position_estimate_encode"
  args := ["usec", "x", "y", "z", "roll", "pitch", "yaw"]

/-- HC_dialect.py:11466-11476 -/
def send69 : SendDef where
  name := "vision_speed_estimate_send"
  params := ["usec", "x", "y", "z", "force_mavlink1"]
  defaults := [("force_mavlink1", 0)]
  encode := "vision_speed_estimate_encode"
  args := ["usec", "x", "y", "z"]

/-- HC_dialect.py:11493-11506 -/
def send70 : SendDef where
  name := "vicon_position_estimate_send"
  params := ["usec", "x", "y", "z", "roll", "pitch", "yaw", "force_mavlink1"]
  defaults := [("force_mavlink1", 0)]
  encode := "vicon_position_estimate_encode"
  args := ["usec", "x", "y", "z", "roll", "pitch", "yaw"]

/-- HC_dialect.py:11531-11552 -/
def send71 : SendDef where
  name := "highres_imu_send"
  params := ["time_usec", "xacc", "yacc", "zacc", "xgyro", "ygyro", "zgyro", "xmag", "ymag", "zmag", "abs_pressure", "diff_pressure", "pressure_alt", "temperature", "fields_updated", "force_mavlink1"]
  defaults := [("force_mavlink1", 0)]
  encode := "highres_imu_encode"
  args := ["time_usec", "xacc", "yacc", "zacc", "xgyro", "ygyro", "zgyro", "xmag", "ymag", "zmag", "abs_pressure", "diff_pressure", "pressure_alt", "temperature", "fields_updated"]

/-- HC_dialect.py:11575-11594 -/
def send72 : SendDef where
  name := "optical_flow_rad_send"
  params := ["time_usec", "sensor_id", "integration_time_us", "integrated_x", "integrated_y", "integrated_xgyro", "integrated_ygyro", "integrated_zgyro", "temperature", "quality", "time_delta_distance_us", "distance", "force_mavlink1"]
  defaults := [("force_mavlink1", 0)]
  encode := "optical_flow_rad_encode"
  args := ["time_usec", "sensor_id", "integration_time_us", "integrated_x", "integrated_y", "integrated_xgyro", "integrated_ygyro", "integrated_zgyro", "temperature", "quality", "time_delta_distance_us", "distance"]

/-- HC_dialect.py:11619-11640 -/
def send73 : SendDef where
  name := "hil_sensor_send"
  params := ["time_usec", "xacc", "yacc", "zacc", "xgyro", "ygyro", "zgyro", "xmag", "ymag", "zmag", "abs_pressure", "diff_pressure", "pressure_alt", "temperature", "fields_updated", "force_mavlink1"]
  defaults := [("force_mavlink1", 0)]
  encode := "hil_sensor_encode"
  args := ["time_usec", "xacc", "yacc", "zacc", "xgyro", "ygyro", "zgyro", "xmag", "ymag", "zmag", "abs_pressure", "diff_pressure", "pressure_alt", "temperature", "fields_updated"]

/-- HC_dialect.py:11671-11698 -/
def send74 : SendDef where
  name := "sim_state_send"
  params := ["q1", "q2", "q3", "q4", "roll", "pitch", "yaw", "xacc", "yacc", "zacc", "xgyro", "ygyro", "zgyro", "lat", "lon", "alt", "std_dev_horz", "std_dev_vert", "vn", "ve", "vd", "force_mavlink1"]
  defaults := [("force_mavlink1", 0)]
  encode := "sim_state_encode"
  args := ["q1", "q2", "q3", "q4", "roll", "pitch", "yaw", "xacc", "yacc", "zacc", "xgyro", "ygyro", "zgyro", "lat", "lon", "alt", "std_dev_horz", "std_dev_vert", "vn", "ve", "vd"]

/-- HC_dialect.py:11715-11728 -/
def send75 : SendDef where
  name := "radio_status_send"
  params := ["rssi", "remrssi", "txbuf", "noise", "remnoise", "rxerrors", "fixed", "force_mavlink1"]
  defaults := [("force_mavlink1", 0)]
  encode := "radio_status_encode"
  args := ["rssi", "remrssi", "txbuf", "noise", "remnoise", "rxerrors", "fixed"]

/-- HC_dialect.py:11742-11752 -/
def send76 : SendDef where
  name := "file_transfer_protocol_send"
  params := ["target_network", "target_system", "target_component", "payload", "force_mavlink1"]
  defaults := [("force_mavlink1", 0)]
  encode := "file_transfer_protocol_encode"
  args := ["target_network", "target_system", "target_component", "payload"]

/-- HC_dialect.py:11764-11772 -/
def send77 : SendDef where
  name := "timesync_send"
  params := ["tc1", "ts1", "force_mavlink1"]
  defaults := [("force_mavlink1", 0)]
  encode := "timesync_encode"
  args := ["tc1", "ts1"]

/-- HC_dialect.py:11784-11792 -/
def send78 : SendDef where
  name := "camera_trigger_send"
  params := ["time_usec", "seq", "force_mavlink1"]
  defaults := [("force_mavlink1", 0)]
  encode := "camera_trigger_encode"
  args := ["time_usec", "seq"]

/-- HC_dialect.py:11820-11844 -/
def send79 : SendDef where
  name := "hil_gps_send"
  params := ["time_usec", "fix_type", "lat", "lon", "alt", "eph", "epv", "vel", "vn", "ve", "vd", "cog", "satellites_visible", "force_mavlink1"]
  defaults := [("force_mavlink1", 0)]
  encode := "hil_gps_encode"
  args := ["time_usec", "fix_type", "lat", "lon", "alt", "eph", "epv", "vel", "vn", "ve", "vd", "cog", "satellites_visible"]

/-- HC_dialect.py:11867-11886 -/
def send80 : SendDef where
  name := "hil_optical_flow_send"
  params := ["time_usec", "sensor_id", "integration_time_us", "integrated_x", "integrated_y", "integrated_xgyro", "integrated_ygyro", "integrated_zgyro", "temperature", "quality", "time_delta_distance_us", "distance", "force_mavlink1"]
  defaults := [("force_mavlink1", 0)]
  encode := "hil_optical_flow_encode"
  args := ["time_usec", "sensor_id", "integration_time_us", "integrated_x", "integrated_y", "integrated_xgyro", "integrated_ygyro", "integrated_zgyro", "temperature", "quality", "time_delta_distance_us", "distance"]

/-- HC_dialect.py:11915-11940 -/
def send81 : SendDef where
  name := "hil_state_quaternion_send"
  params := ["time_usec", "attitude_quaternion", "rollspeed", "pitchspeed", "yawspeed", "lat", "lon", "alt", "vx", "vy", "vz", "ind_airspeed", "true_airspeed", "xacc", "yacc", "zacc", "force_mavlink1"]
  defaults := [("force_mavlink1", 0)]
  encode := "hil_state_quaternion_encode"
  args := ["time_usec", "attitude_quaternion", "rollspeed", "pitchspeed", "yawspeed", "lat", "lon", "alt", "vx", "vy", "vz", "ind_airspeed", "true_airspeed", "xacc", "yacc", "zacc"]

/-- HC_dialect.py:11962-11980 -/
def send82 : SendDef where
  name := "scaled_imu2_send"
  params := ["time_boot_ms", "xacc", "yacc", "zacc", "xgyro", "ygyro", "zgyro", "xmag", "ymag", "zmag", "force_mavlink1"]
  defaults := [("force_mavlink1", 0)]
  encode := "scaled_imu2_encode"
  args := ["time_boot_ms", "xacc", "yacc", "zacc", "xgyro", "ygyro", "zgyro", "xmag", "ymag", "zmag"]

/-- HC_dialect.py:11995-12006 -/
def send83 : SendDef where
  name := "log_request_list_send"
  params := ["target_system", "target_component", "start", "end", "force_mavlink1"]
  defaults := [("force_mavlink1", 0)]
  encode := "log_request_list_encode"
  args := ["target_system", "target_component", "start", "end"]

/-- HC_dialect.py:12021-12032 -/
def send84 : SendDef where
  name := "log_entry_send"
  params := ["id", "num_logs", "last_log_num", "time_utc", "size", "force_mavlink1"]
  defaults := [("force_mavlink1", 0)]
  encode := "log_entry_encode"
  args := ["id", "num_logs", "last_log_num", "time_utc", "size"]

/-- HC_dialect.py:12047-12058 -/
def send85 : SendDef where
  name := "log_request_data_send"
  params := ["target_system", "target_component", "id", "ofs", "count", "force_mavlink1"]
  defaults := [("force_mavlink1", 0)]
  encode := "log_request_data_encode"
  args := ["target_system", "target_component", "id", "ofs", "count"]

/-- HC_dialect.py:12072-12082 -/
def send86 : SendDef where
  name := "log_data_send"
  params := ["id", "ofs", "count", "data", "force_mavlink1"]
  defaults := [("force_mavlink1", 0)]
  encode := "log_data_encode"
  args := ["id", "ofs", "count", "data"]

/-- HC_dialect.py:12094-12102 -/
def send87 : SendDef where
  name := "log_erase_send"
  params := ["target_system", "target_component", "force_mavlink1"]
  defaults := [("force_mavlink1", 0)]
  encode := "log_erase_encode"
  args := ["target_system", "target_component"]

/-- HC_dialect.py:12114-12122 -/
def send88 : SendDef where
  name := "log_request_end_send"
  params := ["target_system", "target_component", "force_mavlink1"]
  defaults := [("force_mavlink1", 0)]
  encode := "log_request_end_encode"
  args := ["target_system", "target_component"]

/-- HC_dialect.py:12136-12146 -/
def send89 : SendDef where
  name := "gps_inject_data_send"
  params := ["target_system", "target_component", "len", "data", "force_mavlink1"]
  defaults := [("force_mavlink1", 0)]
  encode := "gps_inject_data_encode"
  args := ["target_system", "target_component", "len", "data"]

/-- HC_dialect.py:12169-12188 -/
def send90 : SendDef where
  name := "gps2_raw_send"
  params := ["time_usec", "fix_type", "lat", "lon", "alt", "eph", "epv", "vel", "cog", "satellites_visible", "dgps_numch", "dgps_age", "force_mavlink1"]
  defaults := [("force_mavlink1", 0)]
  encode := "gps2_raw_encode"
  args := ["time_usec", "fix_type", "lat", "lon", "alt", "eph", "epv", "vel", "cog", "satellites_visible", "dgps_numch", "dgps_age"]

/-- HC_dialect.py:12201-12210 -/
def send91 : SendDef where
  name := "power_status_send"
  params := ["Vcc", "Vservo", "flags", "force_mavlink1"]
  defaults := [("force_mavlink1", 0)]
  encode := "power_status_encode"
  args := ["Vcc", "Vservo", "flags"]

/-- HC_dialect.py:12231-12248 -/
def send92 : SendDef where
  name := "serial_control_send"
  params := ["device", "flags", "timeout", "baudrate", "count", "data", "force_mavlink1"]
  defaults := [("force_mavlink1", 0)]
  encode := "serial_control_encode"
  args := ["device", "flags", "timeout", "baudrate", "count", "data"]

/-- HC_dialect.py:12272-12292 -/
def send93 : SendDef where
  name := "gps_rtk_send"
  params := ["time_last_baseline_ms", "rtk_receiver_id", "wn", "tow", "rtk_health", "rtk_rate", "nsats", "baseline_coords_type", "baseline_a_mm", "baseline_b_mm", "baseline_c_mm", "accuracy", "iar_num_hypotheses", "force_mavlink1"]
  defaults := [("force_mavlink1", 0)]
  encode := "gps_rtk_encode"
  args := ["time_last_baseline_ms", "rtk_receiver_id", "wn", "tow", "rtk_health", "rtk_rate", "nsats", "baseline_coords_type", "baseline_a_mm", "baseline_b_mm", "baseline_c_mm", "accuracy", "iar_num_hypotheses"]

/-- HC_dialect.py:12316-12336 -/
def send94 : SendDef where
  name := "gps2_rtk_send"
  params := ["time_last_baseline_ms", "rtk_receiver_id", "wn", "tow", "rtk_health", "rtk_rate", "nsats", "baseline_coords_type", "baseline_a_mm", "baseline_b_mm", "baseline_c_mm", "accuracy", "iar_num_hypotheses", "force_mavlink1"]
  defaults := [("force_mavlink1", 0)]
  encode := "gps2_rtk_encode"
  args := ["time_last_baseline_ms", "rtk_receiver_id", "wn", "tow", "rtk_health", "rtk_rate", "nsats", "baseline_coords_type", "baseline_a_mm", "baseline_b_mm", "baseline_c_mm", "accuracy", "iar_num_hypotheses"]

/-- HC_dialect.py:12357-12374 -/
def send95 : SendDef where
  name := "scaled_imu3_send"
  params := ["time_boot_ms", "xacc", "yacc", "zacc", "xgyro", "ygyro", "zgyro", "xmag", "ymag", "zmag", "force_mavlink1"]
  defaults := [("force_mavlink1", 0)]
  encode := "scaled_imu3_encode"
  args := ["time_boot_ms", "xacc", "yacc", "zacc", "xgyro", "ygyro", "zgyro", "xmag", "ymag", "zmag"]

/-- HC_dialect.py:12391-12404 -/
def send96 : SendDef where
  name := "data_transmission_handshake_send"
  params := ["type", "size", "width", "height", "packets", "payload", "jpg_quality", "force_mavlink1"]
  defaults := [("force_mavlink1", 0)]
  encode := "data_transmission_handshake_encode"
  args := ["type", "size", "width", "height", "packets", "payload", "jpg_quality"]

/-- HC_dialect.py:12416-12424 -/
def send97 : SendDef where
  name := "encapsulated_data_send"
  params := ["seqnr", "data", "force_mavlink1"]
  defaults := [("force_mavlink1", 0)]
  encode := "encapsulated_data_encode"
  args := ["seqnr", "data"]

/-- HC_dialect.py:12442-12456 -/
def send98 : SendDef where
  name := "distance_sensor_send"
  params := ["time_boot_ms", "min_distance", "max_distance", "current_distance", "type", "id", "orientation", "covariance", "force_mavlink1"]
  defaults := [("force_mavlink1", 0)]
  encode := "distance_sensor_encode"
  args := ["time_boot_ms", "min_distance", "max_distance", "current_distance", "type", "id", "orientation", "covariance"]

/-- HC_dialect.py:12470-12480 -/
def send99 : SendDef where
  name := "terrain_request_send"
  params := ["lat", "lon", "grid_spacing", "mask", "force_mavlink1"]
  defaults := [("force_mavlink1", 0)]
  encode := "terrain_request_encode"
  args := ["lat", "lon", "grid_spacing", "mask"]

/-- HC_dialect.py:12496-12508 -/
def send100 : SendDef where
  name := "terrain_data_send"
  params := ["lat", "lon", "grid_spacing", "gridbit", "data", "force_mavlink1"]
  defaults := [("force_mavlink1", 0)]
  encode := "terrain_data_encode"
  args := ["lat", "lon", "grid_spacing", "gridbit", "data"]

/-- HC_dialect.py:12522-12532 -/
def send101 : SendDef where
  name := "terrain_check_send"
  params := ["lat", "lon", "force_mavlink1"]
  defaults := [("force_mavlink1", 0)]
  encode := "terrain_check_encode"
  args := ["lat", "lon"]

/-- HC_dialect.py:12549-12562 -/
def send102 : SendDef where
  name := "terrain_report_send"
  params := ["lat", "lon", "spacing", "terrain_height", "current_height", "pending", "loaded", "force_mavlink1"]
  defaults := [("force_mavlink1", 0)]
  encode := "terrain_report_encode"
  args := ["lat", "lon", "spacing", "terrain_height", "current_height", "pending", "loaded"]

/-- HC_dialect.py:12576-12586 -/
def send103 : SendDef where
  name := "scaled_pressure2_send"
  params := ["time_boot_ms", "press_abs", "press_diff", "temperature", "force_mavlink1"]
  defaults := [("force_mavlink1", 0)]
  encode := "scaled_pressure2_encode"
  args := ["time_boot_ms", "press_abs", "press_diff", "temperature"]

/-- HC_dialect.py:12601-12612 -/
def send104 : SendDef where
  name := "att_pos_mocap_send"
  params := ["time_usec", "q", "x", "y", "z", "force_mavlink1"]
  defaults := [("force_mavlink1", 0)]
  encode := "att_pos_mocap_encode"
  args := ["time_usec", "q", "x", "y", "z"]

/-- HC_dialect.py:12627-12638 -/
def send105 : SendDef where
  name := "set_actuator_control_target_send"
  params := ["time_usec", "group_mlx", "target_system", "target_component", "controls", "force_mavlink1"]
  defaults := [("force_mavlink1", 0)]
  encode := "set_actuator_control_target_encode"
  args := ["time_usec", "group_mlx", "target_system", "target_component", "controls"]

/-- HC_dialect.py:12651-12660 -/
def send106 : SendDef where
  name := "actuator_control_target_send"
  params := ["time_usec", "group_mlx", "controls", "force_mavlink1"]
  defaults := [("force_mavlink1", 0)]
  encode := "actuator_control_target_encode"
  args := ["time_usec", "group_mlx", "controls"]

/-- HC_dialect.py:12677-12690 -/
def send107 : SendDef where
  name := "altitude_send"
  params := ["time_usec", "altitude_monotonic", "altitude_amsl", "altitude_local", "altitude_relative", "altitude_terrain", "bottom_clearance", "force_mavlink1"]
  defaults := [("force_mavlink1", 0)]
  encode := "altitude_encode"
  args := ["time_usec", "altitude_monotonic", "altitude_amsl", "altitude_local", "altitude_relative", "altitude_terrain", "bottom_clearance"]

/-- HC_dialect.py:12706-12718 -/
def send108 : SendDef where
  name := "resource_request_send"
  params := ["request_id", "uri_type", "uri", "transfer_type", "storage", "force_mavlink1"]
  defaults := [("force_mavlink1", 0)]
  encode := "resource_request_encode"
  args := ["request_id", "uri_type", "uri", "transfer_type", "storage"]

/-- HC_dialect.py:12732-12742 -/
def send109 : SendDef where
  name := "scaled_pressure3_send"
  params := ["time_boot_ms", "press_abs", "press_diff", "temperature", "force_mavlink1"]
  defaults := [("force_mavlink1", 0)]
  encode := "scaled_pressure3_encode"
  args := ["time_boot_ms", "press_abs", "press_diff", "temperature"]

/-- HC_dialect.py:12770-12794 -/
def send110 : SendDef where
  name := "control_system_state_send"
  params := ["time_usec", "x_acc", "y_acc", "z_acc", "x_vel", "y_vel", "z_vel", "x_pos", "y_pos", "z_pos", "airspeed", "vel_variance", "pos_variance", "q", "roll_rate", "pitch_rate", "yaw_rate", "force_mavlink1"]
  defaults := [("force_mavlink1", 0)]
  encode := "control_system_state_encode"
  args := ["time_usec", "x_acc", "y_acc", "z_acc", "x_vel", "y_vel", "z_vel", "x_pos", "y_pos", "z_pos", "airspeed", "vel_variance", "pos_variance", "q", "roll_rate", "pitch_rate", "yaw_rate"]

/-- HC_dialect.py:12813-12828 -/
def send111 : SendDef where
  name := "battery_status_send"
  params := ["id", "battery_function", "type", "temperature", "voltages", "current_battery", "current_consumed", "energy_consumed", "battery_remaining", "force_mavlink1"]
  defaults := [("force_mavlink1", 0)]
  encode := "battery_status_encode"
  args := ["id", "battery_function", "type", "temperature", "voltages", "current_battery", "current_consumed", "energy_consumed", "battery_remaining"]

/-- HC_dialect.py:12850-12868 -/
def send112 : SendDef where
  name := "autopilot_version_send"
  params := ["capabilities", "main_sw_build_time", "main_sw_version", "mavlink_sw_version", "os_sw_version", "board_version", "main_custom_version", "mavlink_custom_version", "os_custom_version", "vendor_id", "product_id", "uid", "force_mavlink1"]
  defaults := [("force_mavlink1", 0)]
  encode := "autopilot_version_encode"
  args := ["capabilities", "main_sw_build_time", "main_sw_version", "mavlink_sw_version", "os_sw_version", "board_version", "main_custom_version", "mavlink_custom_version", "os_custom_version", "vendor_id", "product_id", "uid"]

/-- HC_dialect.py:12886-12900 -/
def send113 : SendDef where
  name := "landing_target_send"
  params := ["time_usec", "target_num", "frame", "angle_x", "angle_y", "distance", "size_x", "size_y", "force_mavlink1"]
  defaults := [("force_mavlink1", 0)]
  encode := "landing_target_encode"
  args := ["time_usec", "target_num", "frame", "angle_x", "angle_y", "distance", "size_x", "size_y"]

/-- HC_dialect.py:12917-12930 -/
def send114 : SendDef where
  name := "vibration_send"
  params := ["time_usec", "vibration_x", "vibration_y", "vibration_z", "clipping_0", "clipping_1", "clipping_2", "force_mavlink1"]
  defaults := [("force_mavlink1", 0)]
  encode := "vibration_encode"
  args := ["time_usec", "vibration_x", "vibration_y", "vibration_z", "clipping_0", "clipping_1", "clipping_2"]

/-- HC_dialect.py:12963-12992 -/
def send115 : SendDef where
  name := "home_position_send"
  params := ["latitude", "longitude", "altitude", "x", "y", "z", "q", "approach_x", "approach_y", "approach_z", "force_mavlink1"]
  defaults := [("force_mavlink1", 0)]
  encode := "home_position_encode"
  args := ["latitude", "longitude", "altitude", "x", "y", "z", "q", "approach_x", "approach_y", "approach_z"]

/-- HC_dialect.py:13024-13052 -/
def send116 : SendDef where
  name := "set_home_position_send"
  params := ["target_system", "latitude", "longitude", "altitude", "x", "y", "z", "q", "approach_x", "approach_y", "approach_z", "force_mavlink1"]
  defaults := [("force_mavlink1", 0)]
  encode := "set_home_position_encode"
  args := ["target_system", "latitude", "longitude", "altitude", "x", "y", "z", "q", "approach_x", "approach_y", "approach_z"]

/-- HC_dialect.py:13064-13072 -/
def send117 : SendDef where
  name := "message_interval_send"
  params := ["message_id", "interval_us", "force_mavlink1"]
  defaults := [("force_mavlink1", 0)]
  encode := "message_interval_encode"
  args := ["message_id", "interval_us"]

/-- HC_dialect.py:13084-13092 -/
def send118 : SendDef where
  name := "extended_sys_state_send"
  params := ["vtol_state", "landed_state", "force_mavlink1"]
  defaults := [("force_mavlink1", 0)]
  encode := "extended_sys_state_encode"
  args := ["vtol_state", "landed_state"]

/-- HC_dialect.py:13115-13134 -/
def send119 : SendDef where
  name := "adsb_vehicle_send"
  params := ["ICAO_address", "lat", "lon", "altitude_type", "altitude", "heading", "hor_velocity", "ver_velocity", "callsign", "emitter_type", "tslc", "flags", "squawk", "force_mavlink1"]
  defaults := [("force_mavlink1", 0)]
  encode := "adsb_vehicle_encode"
  args := ["ICAO_address", "lat", "lon", "altitude_type", "altitude", "heading", "hor_velocity", "ver_velocity", "callsign", "emitter_type", "tslc", "flags", "squawk"]

/-- HC_dialect.py:13150-13162 -/
def send120 : SendDef where
  name := "v2_extension_send"
  params := ["target_network", "target_system", "target_component", "message_type", "payload", "force_mavlink1"]
  defaults := [("force_mavlink1", 0)]
  encode := "v2_extension_encode"
  args := ["target_network", "target_system", "target_component", "message_type", "payload"]

/-- HC_dialect.py:13178-13190 -/
def send121 : SendDef where
  name := "memory_vect_send"
  params := ["address", "ver", "type", "value", "force_mavlink1"]
  defaults := [("force_mavlink1", 0)]
  encode := "memory_vect_encode"
  args := ["address", "ver", "type", "value"]

/-- HC_dialect.py:13205-13216 -/
def send122 : SendDef where
  name := "debug_vect_send"
  params := ["name", "time_usec", "x", "y", "z", "force_mavlink1"]
  defaults := [("force_mavlink1", 0)]
  encode := "debug_vect_encode"
  args := ["name", "time_usec", "x", "y", "z"]

/-- HC_dialect.py:13232-13244 -/
def send123 : SendDef where
  name := "named_value_float_send"
  params := ["time_boot_ms", "name", "value", "force_mavlink1"]
  defaults := [("force_mavlink1", 0)]
  encode := "named_value_float_encode"
  args := ["time_boot_ms", "name", "value"]

/-- HC_dialect.py:13260-13272 -/
def send124 : SendDef where
  name := "named_value_int_send"
  params := ["time_boot_ms", "name", "value", "force_mavlink1"]
  defaults := [("force_mavlink1", 0)]
  encode := "named_value_int_encode"
  args := ["time_boot_ms", "name", "value"]

/-- HC_dialect.py:13289-13302 -/
def send125 : SendDef where
  name := "statustext_send"
  params := ["severity", "text", "force_mavlink1"]
  defaults := [("force_mavlink1", 0)]
  encode := "statustext_encode"
  args := ["severity", "text"]

/-- HC_dialect.py:13317-13328 -/
def send126 : SendDef where
  name := "debug_send"
  params := ["time_boot_ms", "ind", "value", "force_mavlink1"]
  defaults := [("force_mavlink1", 0)]
  encode := "debug_encode"
  args := ["time_boot_ms", "ind", "value"]

/-- HC_dialect.py:13341-13350 -/
def send127 : SendDef where
  name := "altimeter_sensor_send"
  params := ["time_boot_ms", "Altitude_front", "Altitude_back", "force_mavlink1"]
  defaults := [("force_mavlink1", 0)]
  encode := "altimeter_sensor_encode"
  args := ["time_boot_ms", "Altitude_front", "Altitude_back"]

/-- HC_dialect.py:13366-13378 -/
def send128 : SendDef where
  name := "scaled_svs_send"
  params := ["time_boot_ms", "Speed_of_Sound", "Depth", "Temperature", "Status", "Reserved", "force_mavlink1"]
  defaults := [("force_mavlink1", 0)]
  encode := "scaled_svs_encode"
  args := ["time_boot_ms", "Speed_of_Sound", "Depth", "Temperature", "Status", "Reserved"]

/-- HC_dialect.py:13394-13406 -/
def send129 : SendDef where
  name := "ctd_status_send"
  params := ["time_boot_ms", "Conductivity", "Depth", "Temperature", "Status", "Reserved", "force_mavlink1"]
  defaults := [("force_mavlink1", 0)]
  encode := "ctd_status_encode"
  args := ["time_boot_ms", "Conductivity", "Depth", "Temperature", "Status", "Reserved"]

/-- HC_dialect.py:13426-13442 -/
def send130 : SendDef where
  name := "motor_status_send"
  params := ["time_boot_ms", "motor_num", "rpm", "voltage", "current", "Status", "Fault", "temperature", "pressure", "force_mavlink1"]
  defaults := [("force_mavlink1", 0)]
  encode := "motor_status_encode"
  args := ["time_boot_ms", "motor_num", "rpm", "voltage", "current", "Status", "Fault", "temperature", "pressure"]

/-- HC_dialect.py:13458-13470 -/
def send131 : SendDef where
  name := "rf_modem_status_send"
  params := ["time_boot_ms", "Bit_Rate", "Status", "current", "Reserved", "Reserved2", "force_mavlink1"]
  defaults := [("force_mavlink1", 0)]
  encode := "rf_modem_status_encode"
  args := ["time_boot_ms", "Bit_Rate", "Status", "current", "Reserved", "Reserved2"]

/-- HC_dialect.py:13483-13492 -/
def send132 : SendDef where
  name := "system_onoff_req_send"
  params := ["time_boot_ms", "status", "force_mavlink1"]
  defaults := [("force_mavlink1", 0)]
  encode := "system_onoff_req_encode"
  args := ["time_boot_ms", "status"]

/-- HC_dialect.py:13505-13514 -/
def send133 : SendDef where
  name := "system_onoff_status_send"
  params := ["time_boot_ms", "status", "force_mavlink1"]
  defaults := [("force_mavlink1", 0)]
  encode := "system_onoff_status_encode"
  args := ["time_boot_ms", "status"]

/-- HC_dialect.py:13530-13542 -/
def send134 : SendDef where
  name := "chamber_status_send"
  params := ["time_boot_ms", "chamber_num", "pressure", "temperature", "humidity", "force_mavlink1"]
  defaults := [("force_mavlink1", 0)]
  encode := "chamber_status_encode"
  args := ["time_boot_ms", "chamber_num", "pressure", "temperature", "humidity"]

/-- HC_dialect.py:13563-13580 -/
def send135 : SendDef where
  name := "task_status_send"
  params := ["taskID", "task_status", "time", "task_time", "task_count", "parse_success_count", "parse_error_count", "interupt_count", "rst_count", "err1", "err2", "force_mavlink1"]
  defaults := [("force_mavlink1", 0)]
  encode := "task_status_encode"
  args := ["taskID", "task_status", "time", "task_time", "task_count", "parse_success_count", "parse_error_count", "interupt_count", "rst_count", "err1", "err2"]

/-- HC_dialect.py:13617-13650 -/
def send136 : SendDef where
  name := "param_est_test_send"
  params := ["time_boot_ms_imu", "time_boot_ms_io", "gyro_x", "gyro_y", "gyro_z", "gyro_dot_x", "gyro_dot_y", "gyro_dot_z", "accel_x", "accel_y", "accel_z", "accel_no_g_x", "accel_no_g_y", "accel_no_g_z", "dvl_x", "dvl_y", "dvl_z", "roll", "pitch", "yaw", "motor1_rpm", "motor2_rpm", "motor3_rpm", "motor4_rpm", "motor5_rpm", "motor6_rpm", "motor7_rpm", "force_mavlink1"]
  defaults := [("force_mavlink1", 0)]
  encode := "param_est_test_encode"
  args := ["time_boot_ms_imu", "time_boot_ms_io", "gyro_x", "gyro_y", "gyro_z", "gyro_dot_x", "gyro_dot_y", "gyro_dot_z", "accel_x", "accel_y", "accel_z", "accel_no_g_x", "accel_no_g_y", "accel_no_g_z", "dvl_x", "dvl_y", "dvl_z", "roll", "pitch", "yaw", "motor1_rpm", "motor2_rpm", "motor3_rpm", "motor4_rpm", "motor5_rpm", "motor6_rpm", "motor7_rpm"]

/-- HC_dialect.py:13662-13670 -/
def send137 : SendDef where
  name := "motor_cmd_send"
  params := ["mode", "speed", "force_mavlink1"]
  defaults := [("force_mavlink1", 0)]
  encode := "motor_cmd_encode"
  args := ["mode", "speed"]

/-- HC_dialect.py:13687-13700 -/
def send138 : SendDef where
  name := "bathymetry_send"
  params := ["time_usec", "depth", "altitude", "distance", "range_from_body", "seabed_phi", "seabed_theta", "force_mavlink1"]
  defaults := [("force_mavlink1", 0)]
  encode := "bathymetry_encode"
  args := ["time_usec", "depth", "altitude", "distance", "range_from_body", "seabed_phi", "seabed_theta"]

/-- HC_dialect.py:13719-13734 -/
def send139 : SendDef where
  name := "power_consumption_motors_send"
  params := ["time_boot_ms", "current_ml", "current_mr", "current_p", "current_yb", "current_yf", "current_wl", "current_wr", "battery_voltage", "force_mavlink1"]
  defaults := [("force_mavlink1", 0)]
  encode := "power_consumption_motors_encode"
  args := ["time_boot_ms", "current_ml", "current_mr", "current_p", "current_yb", "current_yf", "current_wl", "current_wr", "battery_voltage"]

/-- HC_dialect.py:13753-13768 -/
def send140 : SendDef where
  name := "power_consumption_2_send"
  params := ["time_boot_ms", "current_1", "voltage_1", "current_2", "voltage_2", "current_3", "voltage_3", "current_4", "voltage_4", "force_mavlink1"]
  defaults := [("force_mavlink1", 0)]
  encode := "power_consumption_2_encode"
  args := ["time_boot_ms", "current_1", "voltage_1", "current_2", "voltage_2", "current_3", "voltage_3", "current_4", "voltage_4"]

/-- HC_dialect.py:13784-13796 -/
def send141 : SendDef where
  name := "system_status_2_send"
  params := ["time_boot_ms", "hc_mode", "hc_system_status", "hc_err_id", "debug1", "debug2", "force_mavlink1"]
  defaults := [("force_mavlink1", 0)]
  encode := "system_status_2_encode"
  args := ["time_boot_ms", "hc_mode", "hc_system_status", "hc_err_id", "debug1", "debug2"]

/-- HC_dialect.py:13814-13828 -/
def send142 : SendDef where
  name := "gps_timing_send"
  params := ["time_boot_ms", "tow_ms", "tow_ns", "accuracy", "local_time_s", "gps_fix", "rtc_month", "rtc_day", "force_mavlink1"]
  defaults := [("force_mavlink1", 0)]
  encode := "gps_timing_encode"
  args := ["time_boot_ms", "tow_ms", "tow_ns", "accuracy", "local_time_s", "gps_fix", "rtc_month", "rtc_day"]

/-- HC_dialect.py:13841-13850 -/
def send143 : SendDef where
  name := "magnetometer_calibration_send"
  params := ["time_boot_ms", "bias", "scaling_matrix", "force_mavlink1"]
  defaults := [("force_mavlink1", 0)]
  encode := "magnetometer_calibration_encode"
  args := ["time_boot_ms", "bias", "scaling_matrix"]

/-- HC_dialect.py:13871-13888 -/
def send144 : SendDef where
  name := "algorithm_status_send"
  params := ["time_boot_ms", "rate", "nav_type", "external_heading", "calibrated", "reset", "hc_maneuver", "hc_maneuver2", "velocity_inov", "attitude_cov", "pos_cov", "force_mavlink1"]
  defaults := [("force_mavlink1", 0)]
  encode := "algorithm_status_encode"
  args := ["time_boot_ms", "rate", "nav_type", "external_heading", "calibrated", "reset", "hc_maneuver", "hc_maneuver2", "velocity_inov", "attitude_cov", "pos_cov"]

/-- HC_dialect.py:13913-13934 -/
def send145 : SendDef where
  name := "dvl_bt_raw_send"
  params := ["time_boot_ms", "v1", "v2", "v3", "v_err", "wm_v1", "wm_v2", "wm_v3", "wm_v4", "range_1", "range_2", "range_3", "range_4", "good_beams_precentege", "ensamble_number", "force_mavlink1"]
  defaults := [("force_mavlink1", 0)]
  encode := "dvl_bt_raw_encode"
  args := ["time_boot_ms", "v1", "v2", "v3", "v_err", "wm_v1", "wm_v2", "wm_v3", "wm_v4", "range_1", "range_2", "range_3", "range_4", "good_beams_precentege", "ensamble_number"]

/-- HC_dialect.py:13950-13962 -/
def send146 : SendDef where
  name := "dvl_bt_scaled_send"
  params := ["time_boot_ms", "v1", "v2", "v3", "altitude", "distance", "force_mavlink1"]
  defaults := [("force_mavlink1", 0)]
  encode := "dvl_bt_scaled_encode"
  args := ["time_boot_ms", "v1", "v2", "v3", "altitude", "distance"]

/-- HC_dialect.py:13997-14028 -/
def send147 : SendDef where
  name := "dvl_bt_highres_send"
  params := ["time_boot_ms", "V1", "V2", "V3", "V4", "Bt_Dmg_1", "Bt_Dmg_2", "Bt_Dmg_3", "Bt_Dmg_4", "Ref_Frame", "Wm_V1", "Wm_V2", "Wm_V3", "Wm_V4", "Svs", "Slant_range", "Axes_delta_range", "Vertical_range", "Percent_good_4bm", "Percent_good_12bm", "Percent_good_34bm", "Bm_1_raw_range", "Bm_2_raw_range", "Bm_3_raw_range", "Bm_4_raw_range", "force_mavlink1"]
  defaults := [("force_mavlink1", 0)]
  encode := "dvl_bt_highres_encode"
  args := ["time_boot_ms", "V1", "V2", "V3", "V4", "Bt_Dmg_1", "Bt_Dmg_2", "Bt_Dmg_3", "Bt_Dmg_4", "Ref_Frame", "Wm_V1", "Wm_V2", "Wm_V3", "Wm_V4", "Svs", "Slant_range", "Axes_delta_range", "Vertical_range", "Percent_good_4bm", "Percent_good_12bm", "Percent_good_34bm", "Bm_1_raw_range", "Bm_2_raw_range", "Bm_3_raw_range", "Bm_4_raw_range"]

/-- HC_dialect.py:14057-14082 -/
def send148 : SendDef where
  name := "dvl_wp_raw_send"
  params := ["time_boot_ms", "Depth_Cell_ID", "v1", "v2", "v3", "v_err", "Depth_Correlation_1", "Depth_Correlation_2", "Depth_Correlation_3", "Depth_Correlation_4", "Depth_Echo_Intensity_1", "Depth_Echo_Intensity_2", "Depth_Echo_Intensity_3", "Depth_Echo_Intensity_4", "Percent_Good_1", "Percent_Good_2", "Percent_Good_3", "Percent_Good_4", "status", "force_mavlink1"]
  defaults := [("force_mavlink1", 0)]
  encode := "dvl_wp_raw_encode"
  args := ["time_boot_ms", "Depth_Cell_ID", "v1", "v2", "v3", "v_err", "Depth_Correlation_1", "Depth_Correlation_2", "Depth_Correlation_3", "Depth_Correlation_4", "Depth_Echo_Intensity_1", "Depth_Echo_Intensity_2", "Depth_Echo_Intensity_3", "Depth_Echo_Intensity_4", "Percent_Good_1", "Percent_Good_2", "Percent_Good_3", "Percent_Good_4", "status"]

/-- HC_dialect.py:14100-14114 -/
def send149 : SendDef where
  name := "time_date_info_send"
  params := ["time_boot_ms", "year", "month", "day", "hours", "minutes", "seconds", "millisec", "force_mavlink1"]
  defaults := [("force_mavlink1", 0)]
  encode := "time_date_info_encode"
  args := ["time_boot_ms", "year", "month", "day", "hours", "minutes", "seconds", "millisec"]

/-- HC_dialect.py:14127-14136 -/
def send150 : SendDef where
  name := "pinger_data_send"
  params := ["time_boot_ms", "range", "azimuth", "force_mavlink1"]
  defaults := [("force_mavlink1", 0)]
  encode := "pinger_data_encode"
  args := ["time_boot_ms", "range", "azimuth"]

/-- HC_dialect.py:14152-14164 -/
def send151 : SendDef where
  name := "hc_acoustic_pos_send"
  params := ["time_boot_ms", "range", "azimuth", "lat_1", "lon_1", "tow_1", "force_mavlink1"]
  defaults := [("force_mavlink1", 0)]
  encode := "hc_acoustic_pos_encode"
  args := ["time_boot_ms", "range", "azimuth", "lat_1", "lon_1", "tow_1"]

/-- HC_dialect.py:14181-14194 -/
def send152 : SendDef where
  name := "debug_msg_1_send"
  params := ["time_boot_ms", "debug_1_1", "debug_1_2", "debug_1_3", "debug_1_4", "debug_1_5", "debug_1_6", "force_mavlink1"]
  defaults := [("force_mavlink1", 0)]
  encode := "debug_msg_1_encode"
  args := ["time_boot_ms", "debug_1_1", "debug_1_2", "debug_1_3", "debug_1_4", "debug_1_5", "debug_1_6"]

/-- HC_dialect.py:14213-14228 -/
def send153 : SendDef where
  name := "hc_acoustic_channel_send"
  params := ["time_boot_ms", "mpd", "psnr", "agc", "spd", "crc_pass", "ccerr", "source", "destination", "force_mavlink1"]
  defaults := [("force_mavlink1", 0)]
  encode := "hc_acoustic_channel_encode"
  args := ["time_boot_ms", "mpd", "psnr", "agc", "spd", "crc_pass", "ccerr", "source", "destination"]

/-- HC_dialect.py:14243-14254 -/
def send154 : SendDef where
  name := "acoustic_transmission_log_send"
  params := ["time_boot_ms", "tow_ms", "count", "slot_num", "data", "force_mavlink1"]
  defaults := [("force_mavlink1", 0)]
  encode := "acoustic_transmission_log_encode"
  args := ["time_boot_ms", "tow_ms", "count", "slot_num", "data"]

/-- All message constructors, HC_dialect.py:2189-8389. -/
def inits : List InitDef :=
  [init0, init1, init2, init4, init5, init6, init7, init11, init20, init21, init22, init23, init24,
   init25, init26, init27, init28, init29, init30, init31, init32, init33, init34, init35, init36,
   init37, init38, init39, init40, init41, init42, init43, init44, init45, init46, init47, init48,
   init49, init50, init54, init55, init61, init62, init63, init64, init65, init66, init67, init69,
   init70, init73, init74, init75, init76, init77, init81, init82, init83, init84, init85, init86,
   init87, init89, init90, init91, init92, init100, init101, init102, init103, init104, init105,
   init106, init107, init108, init109, init110, init111, init112, init113, init114, init115, init116,
   init117, init118, init119, init120, init121, init122, init123, init124, init125, init126, init127,
   init128, init129, init130, init131, init132, init133, init134, init135, init136, init137, init138,
   init139, init140, init141, init142, init143, init146, init147, init148, init149, init241, init242,
   init243, init244, init245, init246, init248, init249, init250, init251, init252, init253, init254,
   init211, init212, init213, init214, init215, init216, init217, init218, init219, init220, init221,
   init222, init223, init224, init225, init226, init227, init228, init229, init230, init231, init232,
   init233, init234, init235, init236, init237, init238]

/-- All `*_encode` methods, HC_dialect.py:8956-14241. -/
def encodeDefs : List EncodeDef :=
  [encode0, encode1, encode2, encode3, encode4, encode5, encode6, encode7, encode8, encode9, encode10,
   encode11, encode12, encode13, encode14, encode15, encode16, encode17, encode18, encode19, encode20,
   encode21, encode22, encode23, encode24, encode25, encode26, encode27, encode28, encode29, encode30,
   encode31, encode32, encode33, encode34, encode35, encode36, encode37, encode38, encode39, encode40,
   encode41, encode42, encode43, encode44, encode45, encode46, encode47, encode48, encode49, encode50,
   encode51, encode52, encode53, encode54, encode55, encode56, encode57, encode58, encode59, encode60,
   encode61, encode62, encode63, encode64, encode65, encode66, encode67, encode68, encode69, encode70,
   encode71, encode72, encode73, encode74, encode75, encode76, encode77, encode78, encode79, encode80,
   encode81, encode82, encode83, encode84, encode85, encode86, encode87, encode88, encode89, encode90,
   encode91, encode92, encode93, encode94, encode95, encode96, encode97, encode98, encode99, encode100,
   encode101, encode102, encode103, encode104, encode105, encode106, encode107, encode108, encode109,
   encode110, encode111, encode112, encode113, encode114, encode115, encode116, encode117, encode118,
   encode119, encode120, encode121, encode122, encode123, encode124, encode125, encode126, encode127,
   encode128, encode129, encode130, encode131, encode132, encode133, encode134, encode135, encode136,
   encode137, encode138, encode139, encode140, encode141, encode142, encode143, encode144, encode145,
   encode146, encode147, encode148, encode149, encode150, encode151, encode152, encode153, encode154]

/-- All `*_send` methods, HC_dialect.py:8974-14254. -/
def sendDefs : List SendDef :=
  [send0, send1, send2, send3, send4, send5, send6, send7, send8, send9, send10, send11, send12, send13,
   send14, send15, send16, send17, send18, send19, send20, send21, send22, send23, send24, send25,
   send26, send27, send28, send29, send30, send31, send32, send33, send34, send35, send36, send37,
   send38, send39, send40, send41, send42, send43, send44, send45, send46, send47, send48, send49,
   send50, send51, send52, send53, send54, send55, send56, send57, send58, send59, send60, send61,
   send62, send63, send64, send65, send66, send67, send68, send69, send70, send71, send72, send73,
   send74, send75, send76, send77, send78, send79, send80, send81, send82, send83, send84, send85,
   send86, send87, send88, send89, send90, send91, send92, send93, send94, send95, send96, send97,
   send98, send99, send100, send101, send102, send103, send104, send105, send106, send107, send108,
   send109, send110, send111, send112, send113, send114, send115, send116, send117, send118, send119,
   send120, send121, send122, send123, send124, send125, send126, send127, send128, send129, send130,
   send131, send132, send133, send134, send135, send136, send137, send138, send139, send140, send141,
   send142, send143, send144, send145, send146, send147, send148, send149, send150, send151, send152,
   send153, send154]

end Dialect
end NR
