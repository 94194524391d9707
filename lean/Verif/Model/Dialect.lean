import Verif.Model.Py
/-
GENERATED from the text of /repo/mavlink_utils/HC_dialect.py: message classes (lines 2189-8389) and
`mavlink_map` (lines 8392-8548). One definition per message class, holding its class attributes
`id, name, fieldnames, ordered_fieldnames, fieldtypes, format, orders, lengths, array_lengths, crc_extra`.
Checked while generating, for all 155 classes: the map key equals `id`; `unpacker` is `struct.Struct(format)`;
the `pack` method calls `struct.pack` with the same format and `MAVLink_message.pack` with the same `crc_extra`;
the arguments of that `struct.pack` are `self.<f>` for `f` in `ordered_fieldnames`, where a non-`char` field
with array length n > 0 is expanded to `self.<f>[0], ..., self.<f>[n-1]`.
-/

namespace NR

/-- C types used by the dialect (`fieldtypes`), HC_dialect.py:2189-8389; keys of
`field_lengths`, protocol_meta/protocol_meta.py:8-9. -/
inductive CType where
  | u64 | i64 | u32 | i32 | f32 | u16 | i16 | u8 | i8 | char
  deriving DecidableEq, Repr

/-- Class attributes of a message class, HC_dialect.py:2189-8389. -/
structure MsgClass where
  id : Nat
  name : String
  fieldnames : List String
  orderedFieldnames : List String
  fieldtypes : List CType
  format : List Char
  orders : List Nat
  lengths : List Nat
  arrayLengths : List Nat
  crcExtra : Nat
  deriving DecidableEq, Repr

namespace Dialect
open CType

/-- HC_dialect.py:2189 `MAVLink_heartbeat_message` -/
def msg0 : MsgClass where
  id := 0
  name := "HEARTBEAT"
  fieldnames := ["type", "autopilot", "base_mode", "custom_mode", "system_status", "mavlink_version"]
  orderedFieldnames := ["custom_mode", "type", "autopilot", "base_mode", "system_status", "mavlink_version"]
  fieldtypes := [u8, u8, u8, u32, u8, u8]
  format := ['<', 'I', 'B', 'B', 'B', 'B', 'B']
  orders := [1, 2, 3, 0, 4, 5]
  lengths := [1, 1, 1, 1, 1, 1]
  arrayLengths := [0, 0, 0, 0, 0, 0]
  crcExtra := 50

/-- HC_dialect.py:2230 `MAVLink_sys_status_message` -/
def msg1 : MsgClass where
  id := 1
  name := "SYS_STATUS"
  fieldnames := ["onboard_control_sensors_present", "onboard_control_sensors_enabled", "onboard_control_sensors_health", "load", "voltage_battery", "current_battery", "battery_remaining", "drop_rate_comm", "errors_comm", "errors_count1", "errors_count2", "errors_count3", "errors_count4"]
  orderedFieldnames := ["onboard_control_sensors_present", "onboard_control_sensors_enabled", "onboard_control_sensors_health", "load", "voltage_battery", "current_battery", "drop_rate_comm", "errors_comm", "errors_count1", "errors_count2", "errors_count3", "errors_count4", "battery_remaining"]
  fieldtypes := [u32, u32, u32, u16, u16, i16, i8, u16, u16, u16, u16, u16, u16]
  format := ['<', 'I', 'I', 'I', 'H', 'H', 'h', 'H', 'H', 'H', 'H', 'H', 'H', 'b']
  orders := [0, 1, 2, 3, 4, 5, 12, 6, 7, 8, 9, 10, 11]
  lengths := [1, 1, 1, 1, 1, 1, 1, 1, 1, 1, 1, 1, 1]
  arrayLengths := [0, 0, 0, 0, 0, 0, 0, 0, 0, 0, 0, 0, 0]
  crcExtra := 124

/-- HC_dialect.py:2289 `MAVLink_system_time_message` -/
def msg2 : MsgClass where
  id := 2
  name := "SYSTEM_TIME"
  fieldnames := ["time_unix_usec", "time_boot_ms"]
  orderedFieldnames := ["time_unix_usec", "time_boot_ms"]
  fieldtypes := [u64, u32]
  format := ['<', 'Q', 'I']
  orders := [0, 1]
  lengths := [1, 1]
  arrayLengths := [0, 0]
  crcExtra := 137

/-- HC_dialect.py:2323 `MAVLink_ping_message` -/
def msg4 : MsgClass where
  id := 4
  name := "PING"
  fieldnames := ["time_usec", "seq", "target_system", "target_component"]
  orderedFieldnames := ["time_usec", "seq", "target_system", "target_component"]
  fieldtypes := [u64, u32, u8, u8]
  format := ['<', 'Q', 'I', 'B', 'B']
  orders := [0, 1, 2, 3]
  lengths := [1, 1, 1, 1]
  arrayLengths := [0, 0, 0, 0]
  crcExtra := 237

/-- HC_dialect.py:2360 `MAVLink_change_operator_control_message` -/
def msg5 : MsgClass where
  id := 5
  name := "CHANGE_OPERATOR_CONTROL"
  fieldnames := ["target_system", "control_request", "version", "passkey"]
  orderedFieldnames := ["target_system", "control_request", "version", "passkey"]
  fieldtypes := [u8, u8, u8, char]
  format := ['<', 'B', 'B', 'B', '2', '5', 's']
  orders := [0, 1, 2, 3]
  lengths := [1, 1, 1, 1]
  arrayLengths := [0, 0, 0, 25]
  crcExtra := 217

/-- HC_dialect.py:2395 `MAVLink_change_operator_control_ack_message` -/
def msg6 : MsgClass where
  id := 6
  name := "CHANGE_OPERATOR_CONTROL_ACK"
  fieldnames := ["gcs_system_id", "control_request", "ack"]
  orderedFieldnames := ["gcs_system_id", "control_request", "ack"]
  fieldtypes := [u8, u8, u8]
  format := ['<', 'B', 'B', 'B']
  orders := [0, 1, 2]
  lengths := [1, 1, 1]
  arrayLengths := [0, 0, 0]
  crcExtra := 104

/-- HC_dialect.py:2429 `MAVLink_auth_key_message` -/
def msg7 : MsgClass where
  id := 7
  name := "AUTH_KEY"
  fieldnames := ["key"]
  orderedFieldnames := ["key"]
  fieldtypes := [char]
  format := ['<', '3', '2', 's']
  orders := [0]
  lengths := [1]
  arrayLengths := [32]
  crcExtra := 119

/-- HC_dialect.py:2464 `MAVLink_set_mode_message` -/
def msg11 : MsgClass where
  id := 11
  name := "SET_MODE"
  fieldnames := ["target_system", "base_mode", "custom_mode"]
  orderedFieldnames := ["custom_mode", "target_system", "base_mode"]
  fieldtypes := [u8, u8, u32]
  format := ['<', 'I', 'B', 'B']
  orders := [1, 2, 0]
  lengths := [1, 1, 1]
  arrayLengths := [0, 0, 0]
  crcExtra := 89

/-- HC_dialect.py:2502 `MAVLink_param_request_read_message` -/
def msg20 : MsgClass where
  id := 20
  name := "PARAM_REQUEST_READ"
  fieldnames := ["target_system", "target_component", "param_id", "param_index"]
  orderedFieldnames := ["param_index", "target_system", "target_component", "param_id"]
  fieldtypes := [u8, u8, char, i16]
  format := ['<', 'h', 'B', 'B', '1', '6', 's']
  orders := [1, 2, 3, 0]
  lengths := [1, 1, 1, 1]
  arrayLengths := [0, 0, 0, 16]
  crcExtra := 214

/-- HC_dialect.py:2544 `MAVLink_param_request_list_message` -/
def msg21 : MsgClass where
  id := 21
  name := "PARAM_REQUEST_LIST"
  fieldnames := ["target_system", "target_component"]
  orderedFieldnames := ["target_system", "target_component"]
  fieldtypes := [u8, u8]
  format := ['<', 'B', 'B']
  orders := [0, 1]
  lengths := [1, 1]
  arrayLengths := [0, 0]
  crcExtra := 159

/-- HC_dialect.py:2578 `MAVLink_param_value_message` -/
def msg22 : MsgClass where
  id := 22
  name := "PARAM_VALUE"
  fieldnames := ["param_id", "param_value", "param_type", "param_count", "param_index"]
  orderedFieldnames := ["param_value", "param_count", "param_index", "param_id", "param_type"]
  fieldtypes := [char, f32, u8, u16, u16]
  format := ['<', 'f', 'H', 'H', '1', '6', 's', 'B']
  orders := [3, 0, 4, 1, 2]
  lengths := [1, 1, 1, 1, 1]
  arrayLengths := [0, 0, 0, 16, 0]
  crcExtra := 220

/-- HC_dialect.py:2617 `MAVLink_param_set_message` -/
def msg23 : MsgClass where
  id := 23
  name := "PARAM_SET"
  fieldnames := ["target_system", "target_component", "param_id", "param_value", "param_type"]
  orderedFieldnames := ["param_value", "target_system", "target_component", "param_id", "param_type"]
  fieldtypes := [u8, u8, char, f32, u8]
  format := ['<', 'f', 'B', 'B', '1', '6', 's', 'B']
  orders := [1, 2, 3, 0, 4]
  lengths := [1, 1, 1, 1, 1]
  arrayLengths := [0, 0, 0, 16, 0]
  crcExtra := 168

/-- HC_dialect.py:2662 `MAVLink_gps_raw_int_message` -/
def msg24 : MsgClass where
  id := 24
  name := "GPS_RAW_INT"
  fieldnames := ["time_usec", "fix_type", "lat", "lon", "alt", "eph", "epv", "vel", "cog", "satellites_visible"]
  orderedFieldnames := ["time_usec", "lat", "lon", "alt", "eph", "epv", "vel", "cog", "fix_type", "satellites_visible"]
  fieldtypes := [u64, u8, i32, i32, i32, u16, u16, u16, u16, u8]
  format := ['<', 'Q', 'i', 'i', 'i', 'H', 'H', 'H', 'H', 'B', 'B']
  orders := [0, 8, 1, 2, 3, 4, 5, 6, 7, 9]
  lengths := [1, 1, 1, 1, 1, 1, 1, 1, 1, 1]
  arrayLengths := [0, 0, 0, 0, 0, 0, 0, 0, 0, 0]
  crcExtra := 24

/-- HC_dialect.py:2707 `MAVLink_gps_status_message` -/
def msg25 : MsgClass where
  id := 25
  name := "GPS_STATUS"
  fieldnames := ["satellites_visible", "satellite_prn", "satellite_used", "satellite_elevation", "satellite_azimuth", "satellite_snr"]
  orderedFieldnames := ["satellites_visible", "satellite_prn", "satellite_used", "satellite_elevation", "satellite_azimuth", "satellite_snr"]
  fieldtypes := [u8, u8, u8, u8, u8, u8]
  format := ['<', 'B', '2', '0', 'B', '2', '0', 'B', '2', '0', 'B', '2', '0', 'B', '2', '0', 'B']
  orders := [0, 1, 2, 3, 4, 5]
  lengths := [1, 20, 20, 20, 20, 20]
  arrayLengths := [0, 20, 20, 20, 20, 20]
  crcExtra := 23

/-- HC_dialect.py:2748 `MAVLink_scaled_imu_message` -/
def msg26 : MsgClass where
  id := 26
  name := "SCALED_IMU"
  fieldnames := ["time_boot_ms", "xacc", "yacc", "zacc", "xgyro", "ygyro", "zgyro", "xmag", "ymag", "zmag"]
  orderedFieldnames := ["time_boot_ms", "xacc", "yacc", "zacc", "xgyro", "ygyro", "zgyro", "xmag", "ymag", "zmag"]
  fieldtypes := [u32, f32, f32, f32, f32, f32, f32, f32, f32, f32]
  format := ['<', 'I', 'f', 'f', 'f', 'f', 'f', 'f', 'f', 'f', 'f']
  orders := [0, 1, 2, 3, 4, 5, 6, 7, 8, 9]
  lengths := [1, 1, 1, 1, 1, 1, 1, 1, 1, 1]
  arrayLengths := [0, 0, 0, 0, 0, 0, 0, 0, 0, 0]
  crcExtra := 174

/-- HC_dialect.py:2791 `MAVLink_raw_imu_message` -/
def msg27 : MsgClass where
  id := 27
  name := "RAW_IMU"
  fieldnames := ["time_usec", "xacc", "yacc", "zacc", "xgyro", "ygyro", "zgyro", "xmag", "ymag", "zmag"]
  orderedFieldnames := ["time_usec", "xacc", "yacc", "zacc", "xgyro", "ygyro", "zgyro", "xmag", "ymag", "zmag"]
  fieldtypes := [u64, i16, i16, i16, i16, i16, i16, i16, i16, i16]
  format := ['<', 'Q', 'h', 'h', 'h', 'h', 'h', 'h', 'h', 'h', 'h']
  orders := [0, 1, 2, 3, 4, 5, 6, 7, 8, 9]
  lengths := [1, 1, 1, 1, 1, 1, 1, 1, 1, 1]
  arrayLengths := [0, 0, 0, 0, 0, 0, 0, 0, 0, 0]
  crcExtra := 144

/-- HC_dialect.py:2834 `MAVLink_raw_pressure_message` -/
def msg28 : MsgClass where
  id := 28
  name := "RAW_PRESSURE"
  fieldnames := ["time_usec", "press_abs", "press_diff1", "press_diff2", "temperature"]
  orderedFieldnames := ["time_usec", "press_abs", "press_diff1", "press_diff2", "temperature"]
  fieldtypes := [u64, i16, i16, i16, i16]
  format := ['<', 'Q', 'h', 'h', 'h', 'h']
  orders := [0, 1, 2, 3, 4]
  lengths := [1, 1, 1, 1, 1]
  arrayLengths := [0, 0, 0, 0, 0]
  crcExtra := 67

/-- HC_dialect.py:2872 `MAVLink_scaled_pressure_message` -/
def msg29 : MsgClass where
  id := 29
  name := "SCALED_PRESSURE"
  fieldnames := ["time_boot_ms", "press_abs", "press_diff", "temperature"]
  orderedFieldnames := ["time_boot_ms", "press_abs", "press_diff", "temperature"]
  fieldtypes := [u32, f32, f32, f32]
  format := ['<', 'I', 'f', 'f', 'f']
  orders := [0, 1, 2, 3]
  lengths := [1, 1, 1, 1]
  arrayLengths := [0, 0, 0, 0]
  crcExtra := 108

/-- HC_dialect.py:2909 `MAVLink_attitude_message` -/
def msg30 : MsgClass where
  id := 30
  name := "ATTITUDE"
  fieldnames := ["time_boot_ms", "roll", "pitch", "yaw", "rollspeed", "pitchspeed", "yawspeed"]
  orderedFieldnames := ["time_boot_ms", "roll", "pitch", "yaw", "rollspeed", "pitchspeed", "yawspeed"]
  fieldtypes := [u32, f32, f32, f32, f32, f32, f32]
  format := ['<', 'I', 'f', 'f', 'f', 'f', 'f', 'f']
  orders := [0, 1, 2, 3, 4, 5, 6]
  lengths := [1, 1, 1, 1, 1, 1, 1]
  arrayLengths := [0, 0, 0, 0, 0, 0, 0]
  crcExtra := 39

/-- HC_dialect.py:2948 `MAVLink_attitude_quaternion_message` -/
def msg31 : MsgClass where
  id := 31
  name := "ATTITUDE_QUATERNION"
  fieldnames := ["time_boot_ms", "q1", "q2", "q3", "q4", "rollspeed", "pitchspeed", "yawspeed"]
  orderedFieldnames := ["time_boot_ms", "q1", "q2", "q3", "q4", "rollspeed", "pitchspeed", "yawspeed"]
  fieldtypes := [u32, f32, f32, f32, f32, f32, f32, f32]
  format := ['<', 'I', 'f', 'f', 'f', 'f', 'f', 'f', 'f']
  orders := [0, 1, 2, 3, 4, 5, 6, 7]
  lengths := [1, 1, 1, 1, 1, 1, 1, 1]
  arrayLengths := [0, 0, 0, 0, 0, 0, 0, 0]
  crcExtra := 246

/-- HC_dialect.py:2990 `MAVLink_local_position_ned_message` -/
def msg32 : MsgClass where
  id := 32
  name := "LOCAL_POSITION_NED"
  fieldnames := ["time_boot_ms", "x", "y", "z", "vx", "vy", "vz"]
  orderedFieldnames := ["time_boot_ms", "x", "y", "z", "vx", "vy", "vz"]
  fieldtypes := [u32, f32, f32, f32, f32, f32, f32]
  format := ['<', 'I', 'f', 'f', 'f', 'f', 'f', 'f']
  orders := [0, 1, 2, 3, 4, 5, 6]
  lengths := [1, 1, 1, 1, 1, 1, 1]
  arrayLengths := [0, 0, 0, 0, 0, 0, 0]
  crcExtra := 185

/-- HC_dialect.py:3030 `MAVLink_global_position_int_message` -/
def msg33 : MsgClass where
  id := 33
  name := "GLOBAL_POSITION_INT"
  fieldnames := ["time_boot_ms", "lat", "lon", "alt", "relative_alt", "bottom_clearnce", "depth", "vx", "vy", "vz", "hdg"]
  orderedFieldnames := ["time_boot_ms", "lat", "lon", "alt", "relative_alt", "bottom_clearnce", "depth", "vx", "vy", "vz", "hdg"]
  fieldtypes := [u32, i32, i32, f32, f32, f32, f32, f32, f32, f32, f32]
  format := ['<', 'I', 'i', 'i', 'f', 'f', 'f', 'f', 'f', 'f', 'f', 'f']
  orders := [0, 1, 2, 3, 4, 5, 6, 7, 8, 9, 10]
  lengths := [1, 1, 1, 1, 1, 1, 1, 1, 1, 1, 1]
  arrayLengths := [0, 0, 0, 0, 0, 0, 0, 0, 0, 0, 0]
  crcExtra := 146

/-- HC_dialect.py:3075 `MAVLink_rc_channels_scaled_message` -/
def msg34 : MsgClass where
  id := 34
  name := "RC_CHANNELS_SCALED"
  fieldnames := ["time_boot_ms", "port", "chan1_scaled", "chan2_scaled", "chan3_scaled", "chan4_scaled", "chan5_scaled", "chan6_scaled", "chan7_scaled", "chan8_scaled", "rssi"]
  orderedFieldnames := ["time_boot_ms", "chan1_scaled", "chan2_scaled", "chan3_scaled", "chan4_scaled", "chan5_scaled", "chan6_scaled", "chan7_scaled", "chan8_scaled", "port", "rssi"]
  fieldtypes := [u32, u8, i16, i16, i16, i16, i16, i16, i16, i16, u8]
  format := ['<', 'I', 'h', 'h', 'h', 'h', 'h', 'h', 'h', 'h', 'B', 'B']
  orders := [0, 9, 1, 2, 3, 4, 5, 6, 7, 8, 10]
  lengths := [1, 1, 1, 1, 1, 1, 1, 1, 1, 1, 1]
  arrayLengths := [0, 0, 0, 0, 0, 0, 0, 0, 0, 0, 0]
  crcExtra := 237

/-- HC_dialect.py:3119 `MAVLink_rc_channels_raw_message` -/
def msg35 : MsgClass where
  id := 35
  name := "RC_CHANNELS_RAW"
  fieldnames := ["time_boot_ms", "port", "chan1_raw", "chan2_raw", "chan3_raw", "chan4_raw", "chan5_raw", "chan6_raw", "chan7_raw", "chan8_raw", "rssi"]
  orderedFieldnames := ["time_boot_ms", "chan1_raw", "chan2_raw", "chan3_raw", "chan4_raw", "chan5_raw", "chan6_raw", "chan7_raw", "chan8_raw", "port", "rssi"]
  fieldtypes := [u32, u8, u16, u16, u16, u16, u16, u16, u16, u16, u8]
  format := ['<', 'I', 'H', 'H', 'H', 'H', 'H', 'H', 'H', 'H', 'B', 'B']
  orders := [0, 9, 1, 2, 3, 4, 5, 6, 7, 8, 10]
  lengths := [1, 1, 1, 1, 1, 1, 1, 1, 1, 1, 1]
  arrayLengths := [0, 0, 0, 0, 0, 0, 0, 0, 0, 0, 0]
  crcExtra := 244

/-- HC_dialect.py:3164 `MAVLink_servo_output_raw_message` -/
def msg36 : MsgClass where
  id := 36
  name := "SERVO_OUTPUT_RAW"
  fieldnames := ["time_usec", "port", "servo1_raw", "servo2_raw", "servo3_raw", "servo4_raw", "servo5_raw", "servo6_raw", "servo7_raw", "servo8_raw"]
  orderedFieldnames := ["time_usec", "servo1_raw", "servo2_raw", "servo3_raw", "servo4_raw", "servo5_raw", "servo6_raw", "servo7_raw", "servo8_raw", "port"]
  fieldtypes := [u32, u8, u16, u16, u16, u16, u16, u16, u16, u16]
  format := ['<', 'I', 'H', 'H', 'H', 'H', 'H', 'H', 'H', 'H', 'B']
  orders := [0, 9, 1, 2, 3, 4, 5, 6, 7, 8]
  lengths := [1, 1, 1, 1, 1, 1, 1, 1, 1, 1]
  arrayLengths := [0, 0, 0, 0, 0, 0, 0, 0, 0, 0]
  crcExtra := 222

/-- HC_dialect.py:3208 `MAVLink_mission_request_partial_list_message` -/
def msg37 : MsgClass where
  id := 37
  name := "MISSION_REQUEST_PARTIAL_LIST"
  fieldnames := ["target_system", "target_component", "start_index", "end_index"]
  orderedFieldnames := ["start_index", "end_index", "target_system", "target_component"]
  fieldtypes := [u8, u8, i16, i16]
  format := ['<', 'h', 'h', 'B', 'B']
  orders := [2, 3, 0, 1]
  lengths := [1, 1, 1, 1]
  arrayLengths := [0, 0, 0, 0]
  crcExtra := 212

/-- HC_dialect.py:3246 `MAVLink_mission_write_partial_list_message` -/
def msg38 : MsgClass where
  id := 38
  name := "MISSION_WRITE_PARTIAL_LIST"
  fieldnames := ["target_system", "target_component", "start_index", "end_index"]
  orderedFieldnames := ["start_index", "end_index", "target_system", "target_component"]
  fieldtypes := [u8, u8, i16, i16]
  format := ['<', 'h', 'h', 'B', 'B']
  orders := [2, 3, 0, 1]
  lengths := [1, 1, 1, 1]
  arrayLengths := [0, 0, 0, 0]
  crcExtra := 9

/-- HC_dialect.py:3284 `MAVLink_mission_item_message` -/
def msg39 : MsgClass where
  id := 39
  name := "MISSION_ITEM"
  fieldnames := ["target_system", "target_component", "seq", "frame", "command", "current", "autocontinue", "param1", "param2", "param3", "param4", "x", "y", "z"]
  orderedFieldnames := ["param1", "param2", "param3", "param4", "x", "y", "z", "seq", "command", "target_system", "target_component", "frame", "current", "autocontinue"]
  fieldtypes := [u8, u8, u16, u8, u16, u8, u8, f32, f32, f32, f32, f32, f32, f32]
  format := ['<', 'f', 'f', 'f', 'f', 'f', 'f', 'f', 'H', 'H', 'B', 'B', 'B', 'B', 'B']
  orders := [9, 10, 7, 11, 8, 12, 13, 0, 1, 2, 3, 4, 5, 6]
  lengths := [1, 1, 1, 1, 1, 1, 1, 1, 1, 1, 1, 1, 1, 1]
  arrayLengths := [0, 0, 0, 0, 0, 0, 0, 0, 0, 0, 0, 0, 0, 0]
  crcExtra := 254

/-- HC_dialect.py:3335 `MAVLink_mission_request_message` -/
def msg40 : MsgClass where
  id := 40
  name := "MISSION_REQUEST"
  fieldnames := ["target_system", "target_component", "seq"]
  orderedFieldnames := ["seq", "target_system", "target_component"]
  fieldtypes := [u8, u8, u16]
  format := ['<', 'H', 'B', 'B']
  orders := [1, 2, 0]
  lengths := [1, 1, 1]
  arrayLengths := [0, 0, 0]
  crcExtra := 230

/-- HC_dialect.py:3372 `MAVLink_mission_set_current_message` -/
def msg41 : MsgClass where
  id := 41
  name := "MISSION_SET_CURRENT"
  fieldnames := ["target_system", "target_component", "seq"]
  orderedFieldnames := ["seq", "target_system", "target_component"]
  fieldtypes := [u8, u8, u16]
  format := ['<', 'H', 'B', 'B']
  orders := [1, 2, 0]
  lengths := [1, 1, 1]
  arrayLengths := [0, 0, 0]
  crcExtra := 28

/-- HC_dialect.py:3409 `MAVLink_mission_current_message` -/
def msg42 : MsgClass where
  id := 42
  name := "MISSION_CURRENT"
  fieldnames := ["seq"]
  orderedFieldnames := ["seq"]
  fieldtypes := [u16]
  format := ['<', 'H']
  orders := [0]
  lengths := [1]
  arrayLengths := [0]
  crcExtra := 28

/-- HC_dialect.py:3443 `MAVLink_mission_request_list_message` -/
def msg43 : MsgClass where
  id := 43
  name := "MISSION_REQUEST_LIST"
  fieldnames := ["target_system", "target_component"]
  orderedFieldnames := ["target_system", "target_component"]
  fieldtypes := [u8, u8]
  format := ['<', 'B', 'B']
  orders := [0, 1]
  lengths := [1, 1]
  arrayLengths := [0, 0]
  crcExtra := 132

/-- HC_dialect.py:3477 `MAVLink_mission_count_message` -/
def msg44 : MsgClass where
  id := 44
  name := "MISSION_COUNT"
  fieldnames := ["target_system", "target_component", "count"]
  orderedFieldnames := ["count", "target_system", "target_component"]
  fieldtypes := [u8, u8, u16]
  format := ['<', 'H', 'B', 'B']
  orders := [1, 2, 0]
  lengths := [1, 1, 1]
  arrayLengths := [0, 0, 0]
  crcExtra := 221

/-- HC_dialect.py:3514 `MAVLink_mission_clear_all_message` -/
def msg45 : MsgClass where
  id := 45
  name := "MISSION_CLEAR_ALL"
  fieldnames := ["target_system", "target_component"]
  orderedFieldnames := ["target_system", "target_component"]
  fieldtypes := [u8, u8]
  format := ['<', 'B', 'B']
  orders := [0, 1]
  lengths := [1, 1]
  arrayLengths := [0, 0]
  crcExtra := 232

/-- HC_dialect.py:3547 `MAVLink_mission_item_reached_message` -/
def msg46 : MsgClass where
  id := 46
  name := "MISSION_ITEM_REACHED"
  fieldnames := ["seq"]
  orderedFieldnames := ["seq"]
  fieldtypes := [u16]
  format := ['<', 'H']
  orders := [0]
  lengths := [1]
  arrayLengths := [0]
  crcExtra := 11

/-- HC_dialect.py:3581 `MAVLink_mission_ack_message` -/
def msg47 : MsgClass where
  id := 47
  name := "MISSION_ACK"
  fieldnames := ["target_system", "target_component", "type"]
  orderedFieldnames := ["target_system", "target_component", "type"]
  fieldtypes := [u8, u8, u8]
  format := ['<', 'B', 'B', 'B']
  orders := [0, 1, 2]
  lengths := [1, 1, 1]
  arrayLengths := [0, 0, 0]
  crcExtra := 153

/-- HC_dialect.py:3617 `MAVLink_set_gps_global_origin_message` -/
def msg48 : MsgClass where
  id := 48
  name := "SET_GPS_GLOBAL_ORIGIN"
  fieldnames := ["target_system", "latitude", "longitude", "altitude"]
  orderedFieldnames := ["latitude", "longitude", "altitude", "target_system"]
  fieldtypes := [u8, i32, i32, i32]
  format := ['<', 'i', 'i', 'i', 'B']
  orders := [3, 0, 1, 2]
  lengths := [1, 1, 1, 1]
  arrayLengths := [0, 0, 0, 0]
  crcExtra := 41

/-- HC_dialect.py:3656 `MAVLink_gps_global_origin_message` -/
def msg49 : MsgClass where
  id := 49
  name := "GPS_GLOBAL_ORIGIN"
  fieldnames := ["latitude", "longitude", "altitude"]
  orderedFieldnames := ["latitude", "longitude", "altitude"]
  fieldtypes := [i32, i32, i32]
  format := ['<', 'i', 'i', 'i']
  orders := [0, 1, 2]
  lengths := [1, 1, 1]
  arrayLengths := [0, 0, 0]
  crcExtra := 39

/-- HC_dialect.py:3691 `MAVLink_param_map_rc_message` -/
def msg50 : MsgClass where
  id := 50
  name := "PARAM_MAP_RC"
  fieldnames := ["target_system", "target_component", "param_id", "param_index", "parameter_rc_channel_index", "param_value0", "scale", "param_value_min", "param_value_max"]
  orderedFieldnames := ["param_value0", "scale", "param_value_min", "param_value_max", "param_index", "target_system", "target_component", "param_id", "parameter_rc_channel_index"]
  fieldtypes := [u8, u8, char, i16, u8, f32, f32, f32, f32]
  format := ['<', 'f', 'f', 'f', 'f', 'h', 'B', 'B', '1', '6', 's', 'B']
  orders := [5, 6, 7, 4, 8, 0, 1, 2, 3]
  lengths := [1, 1, 1, 1, 1, 1, 1, 1, 1]
  arrayLengths := [0, 0, 0, 0, 0, 0, 0, 16, 0]
  crcExtra := 78

/-- HC_dialect.py:3732 `MAVLink_safety_set_allowed_area_message` -/
def msg54 : MsgClass where
  id := 54
  name := "SAFETY_SET_ALLOWED_AREA"
  fieldnames := ["target_system", "target_component", "frame", "p1x", "p1y", "p1z", "p2x", "p2y", "p2z"]
  orderedFieldnames := ["p1x", "p1y", "p1z", "p2x", "p2y", "p2z", "target_system", "target_component", "frame"]
  fieldtypes := [u8, u8, u8, f32, f32, f32, f32, f32, f32]
  format := ['<', 'f', 'f', 'f', 'f', 'f', 'f', 'B', 'B', 'B']
  orders := [6, 7, 8, 0, 1, 2, 3, 4, 5]
  lengths := [1, 1, 1, 1, 1, 1, 1, 1, 1]
  arrayLengths := [0, 0, 0, 0, 0, 0, 0, 0, 0]
  crcExtra := 15

/-- HC_dialect.py:3775 `MAVLink_safety_allowed_area_message` -/
def msg55 : MsgClass where
  id := 55
  name := "SAFETY_ALLOWED_AREA"
  fieldnames := ["frame", "p1x", "p1y", "p1z", "p2x", "p2y", "p2z"]
  orderedFieldnames := ["p1x", "p1y", "p1z", "p2x", "p2y", "p2z", "frame"]
  fieldtypes := [u8, f32, f32, f32, f32, f32, f32]
  format := ['<', 'f', 'f', 'f', 'f', 'f', 'f', 'B']
  orders := [6, 0, 1, 2, 3, 4, 5]
  lengths := [1, 1, 1, 1, 1, 1, 1]
  arrayLengths := [0, 0, 0, 0, 0, 0, 0]
  crcExtra := 3

/-- HC_dialect.py:3813 `MAVLink_attitude_quaternion_cov_message` -/
def msg61 : MsgClass where
  id := 61
  name := "ATTITUDE_QUATERNION_COV"
  fieldnames := ["time_boot_ms", "q", "rollspeed", "pitchspeed", "yawspeed", "covariance"]
  orderedFieldnames := ["time_boot_ms", "q", "rollspeed", "pitchspeed", "yawspeed", "covariance"]
  fieldtypes := [u32, f32, f32, f32, f32, f32]
  format := ['<', 'I', '4', 'f', 'f', 'f', 'f', '9', 'f']
  orders := [0, 1, 2, 3, 4, 5]
  lengths := [1, 4, 1, 1, 1, 9]
  arrayLengths := [0, 4, 0, 0, 0, 9]
  crcExtra := 153

/-- HC_dialect.py:3853 `MAVLink_nav_controller_output_message` -/
def msg62 : MsgClass where
  id := 62
  name := "NAV_CONTROLLER_OUTPUT"
  fieldnames := ["nav_roll", "nav_pitch", "nav_bearing", "target_bearing", "wp_dist", "alt_error", "aspd_error", "xtrack_error"]
  orderedFieldnames := ["nav_roll", "nav_pitch", "alt_error", "aspd_error", "xtrack_error", "nav_bearing", "target_bearing", "wp_dist"]
  fieldtypes := [f32, f32, i16, i16, u16, f32, f32, f32]
  format := ['<', 'f', 'f', 'f', 'f', 'f', 'h', 'h', 'H']
  orders := [0, 1, 5, 6, 7, 2, 3, 4]
  lengths := [1, 1, 1, 1, 1, 1, 1, 1]
  arrayLengths := [0, 0, 0, 0, 0, 0, 0, 0]
  crcExtra := 183

/-- HC_dialect.py:3895 `MAVLink_global_position_int_cov_message` -/
def msg63 : MsgClass where
  id := 63
  name := "GLOBAL_POSITION_INT_COV"
  fieldnames := ["time_boot_ms", "time_utc", "estimator_type", "lat", "lon", "alt", "relative_alt", "vx", "vy", "vz", "covariance"]
  orderedFieldnames := ["time_utc", "time_boot_ms", "lat", "lon", "alt", "relative_alt", "vx", "vy", "vz", "covariance", "estimator_type"]
  fieldtypes := [u32, u64, u8, i32, i32, i32, i32, f32, f32, f32, f32]
  format := ['<', 'Q', 'I', 'i', 'i', 'i', 'i', 'f', 'f', 'f', '3', '6', 'f', 'B']
  orders := [1, 0, 10, 2, 3, 4, 5, 6, 7, 8, 9]
  lengths := [1, 1, 1, 1, 1, 1, 1, 1, 1, 36, 1]
  arrayLengths := [0, 0, 0, 0, 0, 0, 0, 0, 0, 36, 0]
  crcExtra := 51

/-- HC_dialect.py:3944 `MAVLink_local_position_ned_cov_message` -/
def msg64 : MsgClass where
  id := 64
  name := "LOCAL_POSITION_NED_COV"
  fieldnames := ["time_boot_ms", "time_utc", "estimator_type", "x", "y", "z", "vx", "vy", "vz", "ax", "ay", "az", "covariance"]
  orderedFieldnames := ["time_utc", "time_boot_ms", "x", "y", "z", "vx", "vy", "vz", "ax", "ay", "az", "covariance", "estimator_type"]
  fieldtypes := [u32, u64, u8, f32, f32, f32, f32, f32, f32, f32, f32, f32, f32]
  format := ['<', 'Q', 'I', 'f', 'f', 'f', 'f', 'f', 'f', 'f', 'f', 'f', '4', '5', 'f', 'B']
  orders := [1, 0, 12, 2, 3, 4, 5, 6, 7, 8, 9, 10, 11]
  lengths := [1, 1, 1, 1, 1, 1, 1, 1, 1, 1, 1, 45, 1]
  arrayLengths := [0, 0, 0, 0, 0, 0, 0, 0, 0, 0, 0, 45, 0]
  crcExtra := 59

/-- HC_dialect.py:3990 `MAVLink_rc_channels_message` -/
def msg65 : MsgClass where
  id := 65
  name := "RC_CHANNELS"
  fieldnames := ["time_boot_ms", "chancount", "chan1_raw", "chan2_raw", "chan3_raw", "chan4_raw", "chan5_raw", "chan6_raw", "chan7_raw", "chan8_raw", "chan9_raw", "chan10_raw", "chan11_raw", "chan12_raw", "chan13_raw", "chan14_raw", "chan15_raw", "chan16_raw", "chan17_raw", "chan18_raw", "rssi"]
  orderedFieldnames := ["time_boot_ms", "chan1_raw", "chan2_raw", "chan3_raw", "chan4_raw", "chan5_raw", "chan6_raw", "chan7_raw", "chan8_raw", "chan9_raw", "chan10_raw", "chan11_raw", "chan12_raw", "chan13_raw", "chan14_raw", "chan15_raw", "chan16_raw", "chan17_raw", "chan18_raw", "chancount", "rssi"]
  fieldtypes := [u32, u8, u16, u16, u16, u16, u16, u16, u16, u16, u16, u16, u16, u16, u16, u16, u16, u16, u16, u16, u8]
  format := ['<', 'I', 'H', 'H', 'H', 'H', 'H', 'H', 'H', 'H', 'H', 'H', 'H', 'H', 'H', 'H', 'H', 'H', 'H', 'H', 'B', 'B']
  orders := [0, 19, 1, 2, 3, 4, 5, 6, 7, 8, 9, 10, 11, 12, 13, 14, 15, 16, 17, 18, 20]
  lengths := [1, 1, 1, 1, 1, 1, 1, 1, 1, 1, 1, 1, 1, 1, 1, 1, 1, 1, 1, 1, 1]
  arrayLengths := [0, 0, 0, 0, 0, 0, 0, 0, 0, 0, 0, 0, 0, 0, 0, 0, 0, 0, 0, 0, 0]
  crcExtra := 118

/-- HC_dialect.py:4045 `MAVLink_request_data_stream_message` -/
def msg66 : MsgClass where
  id := 66
  name := "REQUEST_DATA_STREAM"
  fieldnames := ["target_system", "target_component", "req_stream_id", "req_message_rate", "start_stop"]
  orderedFieldnames := ["req_message_rate", "target_system", "target_component", "req_stream_id", "start_stop"]
  fieldtypes := [u8, u8, u8, u16, u8]
  format := ['<', 'H', 'B', 'B', 'B', 'B']
  orders := [1, 2, 3, 0, 4]
  lengths := [1, 1, 1, 1, 1]
  arrayLengths := [0, 0, 0, 0, 0]
  crcExtra := 148

/-- HC_dialect.py:4082 `MAVLink_data_stream_message` -/
def msg67 : MsgClass where
  id := 67
  name := "DATA_STREAM"
  fieldnames := ["stream_id", "message_rate", "on_off"]
  orderedFieldnames := ["message_rate", "stream_id", "on_off"]
  fieldtypes := [u8, u16, u8]
  format := ['<', 'H', 'B', 'B']
  orders := [1, 0, 2]
  lengths := [1, 1, 1]
  arrayLengths := [0, 0, 0]
  crcExtra := 21

/-- HC_dialect.py:4116 `MAVLink_manual_control_message` -/
def msg69 : MsgClass where
  id := 69
  name := "MANUAL_CONTROL"
  fieldnames := ["target", "x", "y", "z", "r", "buttons"]
  orderedFieldnames := ["x", "y", "z", "r", "buttons", "target"]
  fieldtypes := [u8, i16, i16, i16, i16, u16]
  format := ['<', 'h', 'h', 'h', 'h', 'H', 'B']
  orders := [5, 0, 1, 2, 3, 4]
  lengths := [1, 1, 1, 1, 1, 1]
  arrayLengths := [0, 0, 0, 0, 0, 0]
  crcExtra := 243

/-- HC_dialect.py:4156 `MAVLink_rc_channels_override_message` -/
def msg70 : MsgClass where
  id := 70
  name := "RC_CHANNELS_OVERRIDE"
  fieldnames := ["target_system", "target_component", "chan1_raw", "chan2_raw", "chan3_raw", "chan4_raw", "chan5_raw", "chan6_raw", "chan7_raw", "chan8_raw"]
  orderedFieldnames := ["chan1_raw", "chan2_raw", "chan3_raw", "chan4_raw", "chan5_raw", "chan6_raw", "chan7_raw", "chan8_raw", "target_system", "target_component"]
  fieldtypes := [u8, u8, u16, u16, u16, u16, u16, u16, u16, u16]
  format := ['<', 'H', 'H', 'H', 'H', 'H', 'H', 'H', 'H', 'B', 'B']
  orders := [8, 9, 0, 1, 2, 3, 4, 5, 6, 7]
  lengths := [1, 1, 1, 1, 1, 1, 1, 1, 1, 1]
  arrayLengths := [0, 0, 0, 0, 0, 0, 0, 0, 0, 0]
  crcExtra := 124

/-- HC_dialect.py:4203 `MAVLink_mission_item_int_message` -/
def msg73 : MsgClass where
  id := 73
  name := "MISSION_ITEM_INT"
  fieldnames := ["target_system", "target_component", "seq", "frame", "command", "current", "autocontinue", "param1", "param2", "param3", "param4", "x", "y", "z"]
  orderedFieldnames := ["param1", "param2", "param3", "param4", "x", "y", "z", "seq", "command", "target_system", "target_component", "frame", "current", "autocontinue"]
  fieldtypes := [u8, u8, u16, u8, u16, u8, u8, f32, f32, f32, f32, i32, i32, f32]
  format := ['<', 'f', 'f', 'f', 'f', 'i', 'i', 'f', 'H', 'H', 'B', 'B', 'B', 'B', 'B']
  orders := [9, 10, 7, 11, 8, 12, 13, 0, 1, 2, 3, 4, 5, 6]
  lengths := [1, 1, 1, 1, 1, 1, 1, 1, 1, 1, 1, 1, 1, 1]
  arrayLengths := [0, 0, 0, 0, 0, 0, 0, 0, 0, 0, 0, 0, 0, 0]
  crcExtra := 38

/-- HC_dialect.py:4254 `MAVLink_vfr_hud_message` -/
def msg74 : MsgClass where
  id := 74
  name := "VFR_HUD"
  fieldnames := ["airspeed", "groundspeed", "heading", "throttle", "alt", "climb"]
  orderedFieldnames := ["airspeed", "groundspeed", "alt", "climb", "heading", "throttle"]
  fieldtypes := [f32, f32, i16, u16, f32, f32]
  format := ['<', 'f', 'f', 'f', 'f', 'h', 'H']
  orders := [0, 1, 4, 5, 2, 3]
  lengths := [1, 1, 1, 1, 1, 1]
  arrayLengths := [0, 0, 0, 0, 0, 0]
  crcExtra := 20

/-- HC_dialect.py:4291 `MAVLink_command_int_message` -/
def msg75 : MsgClass where
  id := 75
  name := "COMMAND_INT"
  fieldnames := ["target_system", "target_component", "frame", "command", "current", "autocontinue", "param1", "param2", "param3", "param4", "x", "y", "z"]
  orderedFieldnames := ["param1", "param2", "param3", "param4", "x", "y", "z", "command", "target_system", "target_component", "frame", "current", "autocontinue"]
  fieldtypes := [u8, u8, u8, u16, u8, u8, f32, f32, f32, f32, i32, i32, f32]
  format := ['<', 'f', 'f', 'f', 'f', 'i', 'i', 'f', 'H', 'B', 'B', 'B', 'B', 'B']
  orders := [8, 9, 10, 7, 11, 12, 0, 1, 2, 3, 4, 5, 6]
  lengths := [1, 1, 1, 1, 1, 1, 1, 1, 1, 1, 1, 1, 1]
  arrayLengths := [0, 0, 0, 0, 0, 0, 0, 0, 0, 0, 0, 0, 0]
  crcExtra := 158

/-- HC_dialect.py:4336 `MAVLink_command_long_message` -/
def msg76 : MsgClass where
  id := 76
  name := "COMMAND_LONG"
  fieldnames := ["target_system", "target_component", "command", "confirmation", "param1", "param2", "param3", "param4", "param5", "param6", "param7"]
  orderedFieldnames := ["param1", "param2", "param3", "param4", "param5", "param6", "param7", "command", "target_system", "target_component", "confirmation"]
  fieldtypes := [u8, u8, u16, u8, f32, f32, f32, f32, f32, f32, f32]
  format := ['<', 'f', 'f', 'f', 'f', 'f', 'f', 'f', 'H', 'B', 'B', 'B']
  orders := [8, 9, 7, 10, 0, 1, 2, 3, 4, 5, 6]
  lengths := [1, 1, 1, 1, 1, 1, 1, 1, 1, 1, 1]
  arrayLengths := [0, 0, 0, 0, 0, 0, 0, 0, 0, 0, 0]
  crcExtra := 152

/-- HC_dialect.py:4378 `MAVLink_command_ack_message` -/
def msg77 : MsgClass where
  id := 77
  name := "COMMAND_ACK"
  fieldnames := ["command", "result"]
  orderedFieldnames := ["command", "result"]
  fieldtypes := [u16, u8]
  format := ['<', 'H', 'B']
  orders := [0, 1]
  lengths := [1, 1]
  arrayLengths := [0, 0]
  crcExtra := 143

/-- HC_dialect.py:4412 `MAVLink_manual_setpoint_message` -/
def msg81 : MsgClass where
  id := 81
  name := "MANUAL_SETPOINT"
  fieldnames := ["time_boot_ms", "roll", "pitch", "yaw", "thrust", "mode_switch", "manual_override_switch"]
  orderedFieldnames := ["time_boot_ms", "roll", "pitch", "yaw", "thrust", "mode_switch", "manual_override_switch"]
  fieldtypes := [u32, f32, f32, f32, f32, u8, u8]
  format := ['<', 'I', 'f', 'f', 'f', 'f', 'B', 'B']
  orders := [0, 1, 2, 3, 4, 5, 6]
  lengths := [1, 1, 1, 1, 1, 1, 1]
  arrayLengths := [0, 0, 0, 0, 0, 0, 0]
  crcExtra := 106

/-- HC_dialect.py:4450 `MAVLink_set_attitude_target_message` -/
def msg82 : MsgClass where
  id := 82
  name := "SET_ATTITUDE_TARGET"
  fieldnames := ["time_boot_ms", "target_system", "target_component", "type_mask", "q", "body_roll_rate", "body_pitch_rate", "body_yaw_rate", "thrust"]
  orderedFieldnames := ["time_boot_ms", "q", "body_roll_rate", "body_pitch_rate", "body_yaw_rate", "thrust", "target_system", "target_component", "type_mask"]
  fieldtypes := [u32, u8, u8, u8, f32, f32, f32, f32, f32]
  format := ['<', 'I', '4', 'f', 'f', 'f', 'f', 'f', 'B', 'B', 'B']
  orders := [0, 6, 7, 8, 1, 2, 3, 4, 5]
  lengths := [1, 4, 1, 1, 1, 1, 1, 1, 1]
  arrayLengths := [0, 4, 0, 0, 0, 0, 0, 0, 0]
  crcExtra := 49

/-- HC_dialect.py:4490 `MAVLink_attitude_target_message` -/
def msg83 : MsgClass where
  id := 83
  name := "ATTITUDE_TARGET"
  fieldnames := ["time_boot_ms", "type_mask", "q", "body_roll_rate", "body_pitch_rate", "body_yaw_rate", "thrust"]
  orderedFieldnames := ["time_boot_ms", "q", "body_roll_rate", "body_pitch_rate", "body_yaw_rate", "thrust", "type_mask"]
  fieldtypes := [u32, u8, f32, f32, f32, f32, f32]
  format := ['<', 'I', '4', 'f', 'f', 'f', 'f', 'f', 'B']
  orders := [0, 6, 1, 2, 3, 4, 5]
  lengths := [1, 4, 1, 1, 1, 1, 1]
  arrayLengths := [0, 4, 0, 0, 0, 0, 0]
  crcExtra := 22

/-- HC_dialect.py:4528 `MAVLink_set_position_target_local_ned_message` -/
def msg84 : MsgClass where
  id := 84
  name := "SET_POSITION_TARGET_LOCAL_NED"
  fieldnames := ["time_boot_ms", "target_system", "target_component", "coordinate_frame", "type_mask", "x", "y", "z", "vx", "vy", "vz", "afx", "afy", "afz", "yaw", "yaw_rate"]
  orderedFieldnames := ["time_boot_ms", "x", "y", "z", "vx", "vy", "vz", "afx", "afy", "afz", "yaw", "yaw_rate", "type_mask", "target_system", "target_component", "coordinate_frame"]
  fieldtypes := [u32, u8, u8, u8, u16, f32, f32, f32, f32, f32, f32, f32, f32, f32, f32, f32]
  format := ['<', 'I', 'f', 'f', 'f', 'f', 'f', 'f', 'f', 'f', 'f', 'f', 'f', 'H', 'B', 'B', 'B']
  orders := [0, 13, 14, 15, 12, 1, 2, 3, 4, 5, 6, 7, 8, 9, 10, 11]
  lengths := [1, 1, 1, 1, 1, 1, 1, 1, 1, 1, 1, 1, 1, 1, 1, 1]
  arrayLengths := [0, 0, 0, 0, 0, 0, 0, 0, 0, 0, 0, 0, 0, 0, 0, 0]
  crcExtra := 143

/-- HC_dialect.py:4576 `MAVLink_position_target_local_ned_message` -/
def msg85 : MsgClass where
  id := 85
  name := "POSITION_TARGET_LOCAL_NED"
  fieldnames := ["time_boot_ms", "coordinate_frame", "type_mask", "x", "y", "z", "vx", "vy", "vz", "afx", "afy", "afz", "yaw", "yaw_rate"]
  orderedFieldnames := ["time_boot_ms", "x", "y", "z", "vx", "vy", "vz", "afx", "afy", "afz", "yaw", "yaw_rate", "type_mask", "coordinate_frame"]
  fieldtypes := [u32, u8, u16, f32, f32, f32, f32, f32, f32, f32, f32, f32, f32, f32]
  format := ['<', 'I', 'f', 'f', 'f', 'f', 'f', 'f', 'f', 'f', 'f', 'f', 'f', 'H', 'B']
  orders := [0, 13, 12, 1, 2, 3, 4, 5, 6, 7, 8, 9, 10, 11]
  lengths := [1, 1, 1, 1, 1, 1, 1, 1, 1, 1, 1, 1, 1, 1]
  arrayLengths := [0, 0, 0, 0, 0, 0, 0, 0, 0, 0, 0, 0, 0, 0]
  crcExtra := 140

/-- HC_dialect.py:4622 `MAVLink_set_position_target_global_int_message` -/
def msg86 : MsgClass where
  id := 86
  name := "SET_POSITION_TARGET_GLOBAL_INT"
  fieldnames := ["time_boot_ms", "target_system", "target_component", "coordinate_frame", "type_mask", "lat_int", "lon_int", "alt", "vx", "vy", "vz", "afx", "afy", "afz", "yaw", "yaw_rate"]
  orderedFieldnames := ["time_boot_ms", "lat_int", "lon_int", "alt", "vx", "vy", "vz", "afx", "afy", "afz", "yaw", "yaw_rate", "type_mask", "target_system", "target_component", "coordinate_frame"]
  fieldtypes := [u32, u8, u8, u8, u16, i32, i32, f32, f32, f32, f32, f32, f32, f32, f32, f32]
  format := ['<', 'I', 'i', 'i', 'f', 'f', 'f', 'f', 'f', 'f', 'f', 'f', 'f', 'H', 'B', 'B', 'B']
  orders := [0, 13, 14, 15, 12, 1, 2, 3, 4, 5, 6, 7, 8, 9, 10, 11]
  lengths := [1, 1, 1, 1, 1, 1, 1, 1, 1, 1, 1, 1, 1, 1, 1, 1]
  arrayLengths := [0, 0, 0, 0, 0, 0, 0, 0, 0, 0, 0, 0, 0, 0, 0, 0]
  crcExtra := 5

/-- HC_dialect.py:4670 `MAVLink_position_target_global_int_message` -/
def msg87 : MsgClass where
  id := 87
  name := "POSITION_TARGET_GLOBAL_INT"
  fieldnames := ["time_boot_ms", "coordinate_frame", "type_mask", "lat_int", "lon_int", "alt", "vx", "vy", "vz", "afx", "afy", "afz", "yaw", "yaw_rate"]
  orderedFieldnames := ["time_boot_ms", "lat_int", "lon_int", "alt", "vx", "vy", "vz", "afx", "afy", "afz", "yaw", "yaw_rate", "type_mask", "coordinate_frame"]
  fieldtypes := [u32, u8, u16, i32, i32, f32, f32, f32, f32, f32, f32, f32, f32, f32]
  format := ['<', 'I', 'i', 'i', 'f', 'f', 'f', 'f', 'f', 'f', 'f', 'f', 'f', 'H', 'B']
  orders := [0, 13, 12, 1, 2, 3, 4, 5, 6, 7, 8, 9, 10, 11]
  lengths := [1, 1, 1, 1, 1, 1, 1, 1, 1, 1, 1, 1, 1, 1]
  arrayLengths := [0, 0, 0, 0, 0, 0, 0, 0, 0, 0, 0, 0, 0, 0]
  crcExtra := 150

/-- HC_dialect.py:4716 `MAVLink_local_position_ned_system_global_offset_message` -/
def msg89 : MsgClass where
  id := 89
  name := "LOCAL_POSITION_NED_SYSTEM_GLOBAL_OFFSET"
  fieldnames := ["time_boot_ms", "x", "y", "z", "roll", "pitch", "yaw"]
  orderedFieldnames := ["time_boot_ms", "x", "y", "z", "roll", "pitch", "yaw"]
  fieldtypes := [u32, f32, f32, f32, f32, f32, f32]
  format := ['<', 'I', 'f', 'f', 'f', 'f', 'f', 'f']
  orders := [0, 1, 2, 3, 4, 5, 6]
  lengths := [1, 1, 1, 1, 1, 1, 1]
  arrayLengths := [0, 0, 0, 0, 0, 0, 0]
  crcExtra := 231

/-- HC_dialect.py:4757 `MAVLink_hil_state_message` -/
def msg90 : MsgClass where
  id := 90
  name := "HIL_STATE"
  fieldnames := ["time_usec", "roll", "pitch", "yaw", "rollspeed", "pitchspeed", "yawspeed", "lat", "lon", "alt", "vx", "vy", "vz", "xacc", "yacc", "zacc"]
  orderedFieldnames := ["time_usec", "roll", "pitch", "yaw", "rollspeed", "pitchspeed", "yawspeed", "lat", "lon", "alt", "vx", "vy", "vz", "xacc", "yacc", "zacc"]
  fieldtypes := [u64, f32, f32, f32, f32, f32, f32, i32, i32, i32, i16, i16, i16, i16, i16, i16]
  format := ['<', 'Q', 'f', 'f', 'f', 'f', 'f', 'f', 'i', 'i', 'i', 'h', 'h', 'h', 'h', 'h', 'h']
  orders := [0, 1, 2, 3, 4, 5, 6, 7, 8, 9, 10, 11, 12, 13, 14, 15]
  lengths := [1, 1, 1, 1, 1, 1, 1, 1, 1, 1, 1, 1, 1, 1, 1, 1]
  arrayLengths := [0, 0, 0, 0, 0, 0, 0, 0, 0, 0, 0, 0, 0, 0, 0, 0]
  crcExtra := 183

/-- HC_dialect.py:4808 `MAVLink_hil_controls_message` -/
def msg91 : MsgClass where
  id := 91
  name := "HIL_CONTROLS"
  fieldnames := ["time_usec", "roll_ailerons", "pitch_elevator", "yaw_rudder", "throttle", "aux1", "aux2", "aux3", "aux4", "mode", "nav_mode"]
  orderedFieldnames := ["time_usec", "roll_ailerons", "pitch_elevator", "yaw_rudder", "throttle", "aux1", "aux2", "aux3", "aux4", "mode", "nav_mode"]
  fieldtypes := [u64, f32, f32, f32, f32, f32, f32, f32, f32, u8, u8]
  format := ['<', 'Q', 'f', 'f', 'f', 'f', 'f', 'f', 'f', 'f', 'B', 'B']
  orders := [0, 1, 2, 3, 4, 5, 6, 7, 8, 9, 10]
  lengths := [1, 1, 1, 1, 1, 1, 1, 1, 1, 1, 1]
  arrayLengths := [0, 0, 0, 0, 0, 0, 0, 0, 0, 0, 0]
  crcExtra := 63

/-- HC_dialect.py:4851 `MAVLink_hil_rc_inputs_raw_message` -/
def msg92 : MsgClass where
  id := 92
  name := "HIL_RC_INPUTS_RAW"
  fieldnames := ["time_usec", "chan1_raw", "chan2_raw", "chan3_raw", "chan4_raw", "chan5_raw", "chan6_raw", "chan7_raw", "chan8_raw", "chan9_raw", "chan10_raw", "chan11_raw", "chan12_raw", "rssi"]
  orderedFieldnames := ["time_usec", "chan1_raw", "chan2_raw", "chan3_raw", "chan4_raw", "chan5_raw", "chan6_raw", "chan7_raw", "chan8_raw", "chan9_raw", "chan10_raw", "chan11_raw", "chan12_raw", "rssi"]
  fieldtypes := [u64, u16, u16, u16, u16, u16, u16, u16, u16, u16, u16, u16, u16, u8]
  format := ['<', 'Q', 'H', 'H', 'H', 'H', 'H', 'H', 'H', 'H', 'H', 'H', 'H', 'H', 'B']
  orders := [0, 1, 2, 3, 4, 5, 6, 7, 8, 9, 10, 11, 12, 13]
  lengths := [1, 1, 1, 1, 1, 1, 1, 1, 1, 1, 1, 1, 1, 1]
  arrayLengths := [0, 0, 0, 0, 0, 0, 0, 0, 0, 0, 0, 0, 0, 0]
  crcExtra := 54

/-- HC_dialect.py:4899 `MAVLink_optical_flow_message` -/
def msg100 : MsgClass where
  id := 100
  name := "OPTICAL_FLOW"
  fieldnames := ["time_usec", "sensor_id", "flow_x", "flow_y", "flow_comp_m_x", "flow_comp_m_y", "quality", "ground_distance"]
  orderedFieldnames := ["time_usec", "flow_comp_m_x", "flow_comp_m_y", "ground_distance", "flow_x", "flow_y", "sensor_id", "quality"]
  fieldtypes := [u64, u8, i16, i16, f32, f32, u8, f32]
  format := ['<', 'Q', 'f', 'f', 'f', 'h', 'h', 'B', 'B']
  orders := [0, 6, 4, 5, 1, 2, 7, 3]
  lengths := [1, 1, 1, 1, 1, 1, 1, 1]
  arrayLengths := [0, 0, 0, 0, 0, 0, 0, 0]
  crcExtra := 175

/-- HC_dialect.py:4938 `MAVLink_global_vision_position_estimate_message` -/
def msg101 : MsgClass where
  id := 101
  name := "GLOBAL_VISION_POSITION_ESTIMATE"
  fieldnames := ["usec", "x", "y", "z", "roll", "pitch", "yaw"]
  orderedFieldnames := ["usec", "x", "y", "z", "roll", "pitch", "yaw"]
  fieldtypes := [u64, f32, f32, f32, f32, f32, f32]
  format := ['<', 'Q', 'f', 'f', 'f', 'f', 'f', 'f']
  orders := [0, 1, 2, 3, 4, 5, 6]
  lengths := [1, 1, 1, 1, 1, 1, 1]
  arrayLengths := [0, 0, 0, 0, 0, 0, 0]
  crcExtra := 102

/-- HC_dialect.py:4976 `MAVLink_vision_position_estimate_message` -/
def msg102 : MsgClass where
  id := 102
  name := "VISION_POSITION_ESTIMATE"
  fieldnames := ["usec", "x", "y", "z", "roll", "pitch", "yaw"]
  orderedFieldnames := ["usec", "x", "y", "z", "roll", "pitch", "yaw"]
  fieldtypes := [u64, f32, f32, f32, f32, f32, f32]
  format := ['<', 'Q', 'f', 'f', 'f', 'f', 'f', 'f']
  orders := [0, 1, 2, 3, 4, 5, 6]
  lengths := [1, 1, 1, 1, 1, 1, 1]
  arrayLengths := [0, 0, 0, 0, 0, 0, 0]
  crcExtra := 158

/-- HC_dialect.py:5014 `MAVLink_vision_speed_estimate_message` -/
def msg103 : MsgClass where
  id := 103
  name := "VISION_SPEED_ESTIMATE"
  fieldnames := ["usec", "x", "y", "z"]
  orderedFieldnames := ["usec", "x", "y", "z"]
  fieldtypes := [u64, f32, f32, f32]
  format := ['<', 'Q', 'f', 'f', 'f']
  orders := [0, 1, 2, 3]
  lengths := [1, 1, 1, 1]
  arrayLengths := [0, 0, 0, 0]
  crcExtra := 208

/-- HC_dialect.py:5049 `MAVLink_vicon_position_estimate_message` -/
def msg104 : MsgClass where
  id := 104
  name := "VICON_POSITION_ESTIMATE"
  fieldnames := ["usec", "x", "y", "z", "roll", "pitch", "yaw"]
  orderedFieldnames := ["usec", "x", "y", "z", "roll", "pitch", "yaw"]
  fieldtypes := [u64, f32, f32, f32, f32, f32, f32]
  format := ['<', 'Q', 'f', 'f', 'f', 'f', 'f', 'f']
  orders := [0, 1, 2, 3, 4, 5, 6]
  lengths := [1, 1, 1, 1, 1, 1, 1]
  arrayLengths := [0, 0, 0, 0, 0, 0, 0]
  crcExtra := 56

/-- HC_dialect.py:5087 `MAVLink_highres_imu_message` -/
def msg105 : MsgClass where
  id := 105
  name := "HIGHRES_IMU"
  fieldnames := ["time_usec", "xacc", "yacc", "zacc", "xgyro", "ygyro", "zgyro", "xmag", "ymag", "zmag", "abs_pressure", "diff_pressure", "pressure_alt", "temperature", "fields_updated"]
  orderedFieldnames := ["time_usec", "xacc", "yacc", "zacc", "xgyro", "ygyro", "zgyro", "xmag", "ymag", "zmag", "abs_pressure", "diff_pressure", "pressure_alt", "temperature", "fields_updated"]
  fieldtypes := [u64, f32, f32, f32, f32, f32, f32, f32, f32, f32, f32, f32, f32, f32, u16]
  format := ['<', 'Q', 'f', 'f', 'f', 'f', 'f', 'f', 'f', 'f', 'f', 'f', 'f', 'f', 'f', 'H']
  orders := [0, 1, 2, 3, 4, 5, 6, 7, 8, 9, 10, 11, 12, 13, 14]
  lengths := [1, 1, 1, 1, 1, 1, 1, 1, 1, 1, 1, 1, 1, 1, 1]
  arrayLengths := [0, 0, 0, 0, 0, 0, 0, 0, 0, 0, 0, 0, 0, 0, 0]
  crcExtra := 93

/-- HC_dialect.py:5133 `MAVLink_optical_flow_rad_message` -/
def msg106 : MsgClass where
  id := 106
  name := "OPTICAL_FLOW_RAD"
  fieldnames := ["time_usec", "sensor_id", "integration_time_us", "integrated_x", "integrated_y", "integrated_xgyro", "integrated_ygyro", "integrated_zgyro", "temperature", "quality", "time_delta_distance_us", "distance"]
  orderedFieldnames := ["time_usec", "integration_time_us", "integrated_x", "integrated_y", "integrated_xgyro", "integrated_ygyro", "integrated_zgyro", "time_delta_distance_us", "distance", "temperature", "sensor_id", "quality"]
  fieldtypes := [u64, u8, u32, f32, f32, f32, f32, f32, i16, u8, u32, f32]
  format := ['<', 'Q', 'I', 'f', 'f', 'f', 'f', 'f', 'I', 'f', 'h', 'B', 'B']
  orders := [0, 10, 1, 2, 3, 4, 5, 6, 9, 11, 7, 8]
  lengths := [1, 1, 1, 1, 1, 1, 1, 1, 1, 1, 1, 1]
  arrayLengths := [0, 0, 0, 0, 0, 0, 0, 0, 0, 0, 0, 0]
  crcExtra := 138

/-- HC_dialect.py:5177 `MAVLink_hil_sensor_message` -/
def msg107 : MsgClass where
  id := 107
  name := "HIL_SENSOR"
  fieldnames := ["time_usec", "xacc", "yacc", "zacc", "xgyro", "ygyro", "zgyro", "xmag", "ymag", "zmag", "abs_pressure", "diff_pressure", "pressure_alt", "temperature", "fields_updated"]
  orderedFieldnames := ["time_usec", "xacc", "yacc", "zacc", "xgyro", "ygyro", "zgyro", "xmag", "ymag", "zmag", "abs_pressure", "diff_pressure", "pressure_alt", "temperature", "fields_updated"]
  fieldtypes := [u64, f32, f32, f32, f32, f32, f32, f32, f32, f32, f32, f32, f32, f32, u32]
  format := ['<', 'Q', 'f', 'f', 'f', 'f', 'f', 'f', 'f', 'f', 'f', 'f', 'f', 'f', 'f', 'I']
  orders := [0, 1, 2, 3, 4, 5, 6, 7, 8, 9, 10, 11, 12, 13, 14]
  lengths := [1, 1, 1, 1, 1, 1, 1, 1, 1, 1, 1, 1, 1, 1, 1]
  arrayLengths := [0, 0, 0, 0, 0, 0, 0, 0, 0, 0, 0, 0, 0, 0, 0]
  crcExtra := 108

/-- HC_dialect.py:5223 `MAVLink_sim_state_message` -/
def msg108 : MsgClass where
  id := 108
  name := "SIM_STATE"
  fieldnames := ["q1", "q2", "q3", "q4", "roll", "pitch", "yaw", "xacc", "yacc", "zacc", "xgyro", "ygyro", "zgyro", "lat", "lon", "alt", "std_dev_horz", "std_dev_vert", "vn", "ve", "vd"]
  orderedFieldnames := ["q1", "q2", "q3", "q4", "roll", "pitch", "yaw", "xacc", "yacc", "zacc", "xgyro", "ygyro", "zgyro", "lat", "lon", "alt", "std_dev_horz", "std_dev_vert", "vn", "ve", "vd"]
  fieldtypes := [f32, f32, f32, f32, f32, f32, f32, f32, f32, f32, f32, f32, f32, f32, f32, f32, f32, f32, f32, f32, f32]
  format := ['<', 'f', 'f', 'f', 'f', 'f', 'f', 'f', 'f', 'f', 'f', 'f', 'f', 'f', 'f', 'f', 'f', 'f', 'f', 'f', 'f', 'f']
  orders := [0, 1, 2, 3, 4, 5, 6, 7, 8, 9, 10, 11, 12, 13, 14, 15, 16, 17, 18, 19, 20]
  lengths := [1, 1, 1, 1, 1, 1, 1, 1, 1, 1, 1, 1, 1, 1, 1, 1, 1, 1, 1, 1, 1]
  arrayLengths := [0, 0, 0, 0, 0, 0, 0, 0, 0, 0, 0, 0, 0, 0, 0, 0, 0, 0, 0, 0, 0]
  crcExtra := 32

/-- HC_dialect.py:5275 `MAVLink_radio_status_message` -/
def msg109 : MsgClass where
  id := 109
  name := "RADIO_STATUS"
  fieldnames := ["rssi", "remrssi", "txbuf", "noise", "remnoise", "rxerrors", "fixed"]
  orderedFieldnames := ["rxerrors", "fixed", "rssi", "remrssi", "txbuf", "noise", "remnoise"]
  fieldtypes := [u8, u8, u8, u8, u8, u16, u16]
  format := ['<', 'H', 'H', 'B', 'B', 'B', 'B', 'B']
  orders := [2, 3, 4, 5, 6, 0, 1]
  lengths := [1, 1, 1, 1, 1, 1, 1]
  arrayLengths := [0, 0, 0, 0, 0, 0, 0]
  crcExtra := 185

/-- HC_dialect.py:5313 `MAVLink_file_transfer_protocol_message` -/
def msg110 : MsgClass where
  id := 110
  name := "FILE_TRANSFER_PROTOCOL"
  fieldnames := ["target_network", "target_system", "target_component", "payload"]
  orderedFieldnames := ["target_network", "target_system", "target_component", "payload"]
  fieldtypes := [u8, u8, u8, u8]
  format := ['<', 'B', 'B', 'B', '2', '5', '1', 'B']
  orders := [0, 1, 2, 3]
  lengths := [1, 1, 1, 251]
  arrayLengths := [0, 0, 0, 251]
  crcExtra := 84

/-- HC_dialect.py:5348 `MAVLink_timesync_message` -/
def msg111 : MsgClass where
  id := 111
  name := "TIMESYNC"
  fieldnames := ["tc1", "ts1"]
  orderedFieldnames := ["tc1", "ts1"]
  fieldtypes := [i64, i64]
  format := ['<', 'q', 'q']
  orders := [0, 1]
  lengths := [1, 1]
  arrayLengths := [0, 0]
  crcExtra := 34

/-- HC_dialect.py:5381 `MAVLink_camera_trigger_message` -/
def msg112 : MsgClass where
  id := 112
  name := "CAMERA_TRIGGER"
  fieldnames := ["time_usec", "seq"]
  orderedFieldnames := ["time_usec", "seq"]
  fieldtypes := [u64, u32]
  format := ['<', 'Q', 'I']
  orders := [0, 1]
  lengths := [1, 1]
  arrayLengths := [0, 0]
  crcExtra := 174

/-- HC_dialect.py:5414 `MAVLink_hil_gps_message` -/
def msg113 : MsgClass where
  id := 113
  name := "HIL_GPS"
  fieldnames := ["time_usec", "fix_type", "lat", "lon", "alt", "eph", "epv", "vel", "vn", "ve", "vd", "cog", "satellites_visible"]
  orderedFieldnames := ["time_usec", "lat", "lon", "alt", "eph", "epv", "vel", "vn", "ve", "vd", "cog", "fix_type", "satellites_visible"]
  fieldtypes := [u64, u8, i32, i32, i32, u16, u16, u16, i16, i16, i16, u16, u8]
  format := ['<', 'Q', 'i', 'i', 'i', 'H', 'H', 'H', 'h', 'h', 'h', 'H', 'B', 'B']
  orders := [0, 11, 1, 2, 3, 4, 5, 6, 7, 8, 9, 10, 12]
  lengths := [1, 1, 1, 1, 1, 1, 1, 1, 1, 1, 1, 1, 1]
  arrayLengths := [0, 0, 0, 0, 0, 0, 0, 0, 0, 0, 0, 0, 0]
  crcExtra := 124

/-- HC_dialect.py:5462 `MAVLink_hil_optical_flow_message` -/
def msg114 : MsgClass where
  id := 114
  name := "HIL_OPTICAL_FLOW"
  fieldnames := ["time_usec", "sensor_id", "integration_time_us", "integrated_x", "integrated_y", "integrated_xgyro", "integrated_ygyro", "integrated_zgyro", "temperature", "quality", "time_delta_distance_us", "distance"]
  orderedFieldnames := ["time_usec", "integration_time_us", "integrated_x", "integrated_y", "integrated_xgyro", "integrated_ygyro", "integrated_zgyro", "time_delta_distance_us", "distance", "temperature", "sensor_id", "quality"]
  fieldtypes := [u64, u8, u32, f32, f32, f32, f32, f32, i16, u8, u32, f32]
  format := ['<', 'Q', 'I', 'f', 'f', 'f', 'f', 'f', 'I', 'f', 'h', 'B', 'B']
  orders := [0, 10, 1, 2, 3, 4, 5, 6, 9, 11, 7, 8]
  lengths := [1, 1, 1, 1, 1, 1, 1, 1, 1, 1, 1, 1]
  arrayLengths := [0, 0, 0, 0, 0, 0, 0, 0, 0, 0, 0, 0]
  crcExtra := 237

/-- HC_dialect.py:5506 `MAVLink_hil_state_quaternion_message` -/
def msg115 : MsgClass where
  id := 115
  name := "HIL_STATE_QUATERNION"
  fieldnames := ["time_usec", "attitude_quaternion", "rollspeed", "pitchspeed", "yawspeed", "lat", "lon", "alt", "vx", "vy", "vz", "ind_airspeed", "true_airspeed", "xacc", "yacc", "zacc"]
  orderedFieldnames := ["time_usec", "attitude_quaternion", "rollspeed", "pitchspeed", "yawspeed", "lat", "lon", "alt", "vx", "vy", "vz", "ind_airspeed", "true_airspeed", "xacc", "yacc", "zacc"]
  fieldtypes := [u64, f32, f32, f32, f32, i32, i32, i32, i16, i16, i16, u16, u16, i16, i16, i16]
  format := ['<', 'Q', '4', 'f', 'f', 'f', 'f', 'i', 'i', 'i', 'h', 'h', 'h', 'H', 'H', 'h', 'h', 'h']
  orders := [0, 1, 2, 3, 4, 5, 6, 7, 8, 9, 10, 11, 12, 13, 14, 15]
  lengths := [1, 4, 1, 1, 1, 1, 1, 1, 1, 1, 1, 1, 1, 1, 1, 1]
  arrayLengths := [0, 4, 0, 0, 0, 0, 0, 0, 0, 0, 0, 0, 0, 0, 0, 0]
  crcExtra := 4

/-- HC_dialect.py:5556 `MAVLink_scaled_imu2_message` -/
def msg116 : MsgClass where
  id := 116
  name := "SCALED_IMU2"
  fieldnames := ["time_boot_ms", "xacc", "yacc", "zacc", "xgyro", "ygyro", "zgyro", "xmag", "ymag", "zmag"]
  orderedFieldnames := ["time_boot_ms", "xacc", "yacc", "zacc", "xgyro", "ygyro", "zgyro", "xmag", "ymag", "zmag"]
  fieldtypes := [u32, f32, f32, f32, f32, f32, f32, f32, f32, f32]
  format := ['<', 'I', 'f', 'f', 'f', 'f', 'f', 'f', 'f', 'f', 'f']
  orders := [0, 1, 2, 3, 4, 5, 6, 7, 8, 9]
  lengths := [1, 1, 1, 1, 1, 1, 1, 1, 1, 1]
  arrayLengths := [0, 0, 0, 0, 0, 0, 0, 0, 0, 0]
  crcExtra := 33

/-- HC_dialect.py:5599 `MAVLink_log_request_list_message` -/
def msg117 : MsgClass where
  id := 117
  name := "LOG_REQUEST_LIST"
  fieldnames := ["target_system", "target_component", "start", "end"]
  orderedFieldnames := ["start", "end", "target_system", "target_component"]
  fieldtypes := [u8, u8, u16, u16]
  format := ['<', 'H', 'H', 'B', 'B']
  orders := [2, 3, 0, 1]
  lengths := [1, 1, 1, 1]
  arrayLengths := [0, 0, 0, 0]
  crcExtra := 128

/-- HC_dialect.py:5635 `MAVLink_log_entry_message` -/
def msg118 : MsgClass where
  id := 118
  name := "LOG_ENTRY"
  fieldnames := ["id", "num_logs", "last_log_num", "time_utc", "size"]
  orderedFieldnames := ["time_utc", "size", "id", "num_logs", "last_log_num"]
  fieldtypes := [u16, u16, u16, u32, u32]
  format := ['<', 'I', 'I', 'H', 'H', 'H']
  orders := [2, 3, 4, 0, 1]
  lengths := [1, 1, 1, 1, 1]
  arrayLengths := [0, 0, 0, 0, 0]
  crcExtra := 56

/-- HC_dialect.py:5671 `MAVLink_log_request_data_message` -/
def msg119 : MsgClass where
  id := 119
  name := "LOG_REQUEST_DATA"
  fieldnames := ["target_system", "target_component", "id", "ofs", "count"]
  orderedFieldnames := ["ofs", "count", "id", "target_system", "target_component"]
  fieldtypes := [u8, u8, u16, u32, u32]
  format := ['<', 'I', 'I', 'H', 'B', 'B']
  orders := [3, 4, 2, 0, 1]
  lengths := [1, 1, 1, 1, 1]
  arrayLengths := [0, 0, 0, 0, 0]
  crcExtra := 116

/-- HC_dialect.py:5707 `MAVLink_log_data_message` -/
def msg120 : MsgClass where
  id := 120
  name := "LOG_DATA"
  fieldnames := ["id", "ofs", "count", "data"]
  orderedFieldnames := ["ofs", "id", "count", "data"]
  fieldtypes := [u16, u32, u8, u8]
  format := ['<', 'I', 'H', 'B', '9', '0', 'B']
  orders := [1, 0, 2, 3]
  lengths := [1, 1, 1, 90]
  arrayLengths := [0, 0, 0, 90]
  crcExtra := 134

/-- HC_dialect.py:5742 `MAVLink_log_erase_message` -/
def msg121 : MsgClass where
  id := 121
  name := "LOG_ERASE"
  fieldnames := ["target_system", "target_component"]
  orderedFieldnames := ["target_system", "target_component"]
  fieldtypes := [u8, u8]
  format := ['<', 'B', 'B']
  orders := [0, 1]
  lengths := [1, 1]
  arrayLengths := [0, 0]
  crcExtra := 237

/-- HC_dialect.py:5775 `MAVLink_log_request_end_message` -/
def msg122 : MsgClass where
  id := 122
  name := "LOG_REQUEST_END"
  fieldnames := ["target_system", "target_component"]
  orderedFieldnames := ["target_system", "target_component"]
  fieldtypes := [u8, u8]
  format := ['<', 'B', 'B']
  orders := [0, 1]
  lengths := [1, 1]
  arrayLengths := [0, 0]
  crcExtra := 203

/-- HC_dialect.py:5808 `MAVLink_gps_inject_data_message` -/
def msg123 : MsgClass where
  id := 123
  name := "GPS_INJECT_DATA"
  fieldnames := ["target_system", "target_component", "len", "data"]
  orderedFieldnames := ["target_system", "target_component", "len", "data"]
  fieldtypes := [u8, u8, u8, u8]
  format := ['<', 'B', 'B', 'B', '1', '1', '0', 'B']
  orders := [0, 1, 2, 3]
  lengths := [1, 1, 1, 110]
  arrayLengths := [0, 0, 0, 110]
  crcExtra := 250

/-- HC_dialect.py:5843 `MAVLink_gps2_raw_message` -/
def msg124 : MsgClass where
  id := 124
  name := "GPS2_RAW"
  fieldnames := ["time_usec", "fix_type", "lat", "lon", "alt", "eph", "epv", "vel", "cog", "satellites_visible", "dgps_numch", "dgps_age"]
  orderedFieldnames := ["time_usec", "lat", "lon", "alt", "dgps_age", "eph", "epv", "vel", "cog", "fix_type", "satellites_visible", "dgps_numch"]
  fieldtypes := [u64, u8, i32, i32, i32, u16, u16, u16, u16, u8, u8, u32]
  format := ['<', 'Q', 'i', 'i', 'i', 'I', 'H', 'H', 'H', 'H', 'B', 'B', 'B']
  orders := [0, 9, 1, 2, 3, 5, 6, 7, 8, 10, 11, 4]
  lengths := [1, 1, 1, 1, 1, 1, 1, 1, 1, 1, 1, 1]
  arrayLengths := [0, 0, 0, 0, 0, 0, 0, 0, 0, 0, 0, 0]
  crcExtra := 87

/-- HC_dialect.py:5887 `MAVLink_power_status_message` -/
def msg125 : MsgClass where
  id := 125
  name := "POWER_STATUS"
  fieldnames := ["Vcc", "Vservo", "flags"]
  orderedFieldnames := ["Vcc", "Vservo", "flags"]
  fieldtypes := [u16, u16, u16]
  format := ['<', 'H', 'H', 'H']
  orders := [0, 1, 2]
  lengths := [1, 1, 1]
  arrayLengths := [0, 0, 0]
  crcExtra := 203

/-- HC_dialect.py:5921 `MAVLink_serial_control_message` -/
def msg126 : MsgClass where
  id := 126
  name := "SERIAL_CONTROL"
  fieldnames := ["device", "flags", "timeout", "baudrate", "count", "data"]
  orderedFieldnames := ["baudrate", "timeout", "device", "flags", "count", "data"]
  fieldtypes := [u8, u8, u16, u32, u8, u8]
  format := ['<', 'I', 'H', 'B', 'B', 'B', '8', '0', 'B']
  orders := [2, 3, 1, 0, 4, 5]
  lengths := [1, 1, 1, 1, 1, 80]
  arrayLengths := [0, 0, 0, 0, 0, 80]
  crcExtra := 30

/-- HC_dialect.py:5962 `MAVLink_gps_rtk_message` -/
def msg127 : MsgClass where
  id := 127
  name := "GPS_RTK"
  fieldnames := ["time_last_baseline_ms", "rtk_receiver_id", "wn", "tow", "rtk_health", "rtk_rate", "nsats", "baseline_coords_type", "baseline_a_mm", "baseline_b_mm", "baseline_c_mm", "accuracy", "iar_num_hypotheses"]
  orderedFieldnames := ["time_last_baseline_ms", "tow", "baseline_a_mm", "baseline_b_mm", "baseline_c_mm", "accuracy", "iar_num_hypotheses", "wn", "rtk_receiver_id", "rtk_health", "rtk_rate", "nsats", "baseline_coords_type"]
  fieldtypes := [u32, u8, u16, u32, u8, u8, u8, u8, i32, i32, i32, u32, i32]
  format := ['<', 'I', 'I', 'i', 'i', 'i', 'I', 'i', 'H', 'B', 'B', 'B', 'B', 'B']
  orders := [0, 8, 7, 1, 9, 10, 11, 12, 2, 3, 4, 5, 6]
  lengths := [1, 1, 1, 1, 1, 1, 1, 1, 1, 1, 1, 1, 1]
  arrayLengths := [0, 0, 0, 0, 0, 0, 0, 0, 0, 0, 0, 0, 0]
  crcExtra := 25

/-- HC_dialect.py:6007 `MAVLink_gps2_rtk_message` -/
def msg128 : MsgClass where
  id := 128
  name := "GPS2_RTK"
  fieldnames := ["time_last_baseline_ms", "rtk_receiver_id", "wn", "tow", "rtk_health", "rtk_rate", "nsats", "baseline_coords_type", "baseline_a_mm", "baseline_b_mm", "baseline_c_mm", "accuracy", "iar_num_hypotheses"]
  orderedFieldnames := ["time_last_baseline_ms", "tow", "baseline_a_mm", "baseline_b_mm", "baseline_c_mm", "accuracy", "iar_num_hypotheses", "wn", "rtk_receiver_id", "rtk_health", "rtk_rate", "nsats", "baseline_coords_type"]
  fieldtypes := [u32, u8, u16, u32, u8, u8, u8, u8, i32, i32, i32, u32, i32]
  format := ['<', 'I', 'I', 'i', 'i', 'i', 'I', 'i', 'H', 'B', 'B', 'B', 'B', 'B']
  orders := [0, 8, 7, 1, 9, 10, 11, 12, 2, 3, 4, 5, 6]
  lengths := [1, 1, 1, 1, 1, 1, 1, 1, 1, 1, 1, 1, 1]
  arrayLengths := [0, 0, 0, 0, 0, 0, 0, 0, 0, 0, 0, 0, 0]
  crcExtra := 226

/-- HC_dialect.py:6052 `MAVLink_scaled_imu3_message` -/
def msg129 : MsgClass where
  id := 129
  name := "SCALED_IMU3"
  fieldnames := ["time_boot_ms", "xacc", "yacc", "zacc", "xgyro", "ygyro", "zgyro", "xmag", "ymag", "zmag"]
  orderedFieldnames := ["time_boot_ms", "xacc", "yacc", "zacc", "xgyro", "ygyro", "zgyro", "xmag", "ymag", "zmag"]
  fieldtypes := [u32, f32, f32, f32, f32, f32, f32, f32, f32, f32]
  format := ['<', 'I', 'f', 'f', 'f', 'f', 'f', 'f', 'f', 'f', 'f']
  orders := [0, 1, 2, 3, 4, 5, 6, 7, 8, 9]
  lengths := [1, 1, 1, 1, 1, 1, 1, 1, 1, 1]
  arrayLengths := [0, 0, 0, 0, 0, 0, 0, 0, 0, 0]
  crcExtra := 191

/-- HC_dialect.py:6094 `MAVLink_data_transmission_handshake_message` -/
def msg130 : MsgClass where
  id := 130
  name := "DATA_TRANSMISSION_HANDSHAKE"
  fieldnames := ["type", "size", "width", "height", "packets", "payload", "jpg_quality"]
  orderedFieldnames := ["size", "width", "height", "packets", "type", "payload", "jpg_quality"]
  fieldtypes := [u8, u32, u16, u16, u16, u8, u8]
  format := ['<', 'I', 'H', 'H', 'H', 'B', 'B', 'B']
  orders := [4, 0, 1, 2, 3, 5, 6]
  lengths := [1, 1, 1, 1, 1, 1, 1]
  arrayLengths := [0, 0, 0, 0, 0, 0, 0]
  crcExtra := 29

/-- HC_dialect.py:6132 `MAVLink_encapsulated_data_message` -/
def msg131 : MsgClass where
  id := 131
  name := "ENCAPSULATED_DATA"
  fieldnames := ["seqnr", "data"]
  orderedFieldnames := ["seqnr", "data"]
  fieldtypes := [u16, u8]
  format := ['<', 'H', '2', '5', '3', 'B']
  orders := [0, 1]
  lengths := [1, 253]
  arrayLengths := [0, 253]
  crcExtra := 223

/-- HC_dialect.py:6165 `MAVLink_distance_sensor_message` -/
def msg132 : MsgClass where
  id := 132
  name := "DISTANCE_SENSOR"
  fieldnames := ["time_boot_ms", "min_distance", "max_distance", "current_distance", "type", "id", "orientation", "covariance"]
  orderedFieldnames := ["time_boot_ms", "min_distance", "max_distance", "current_distance", "type", "id", "orientation", "covariance"]
  fieldtypes := [u32, u16, u16, u16, u8, u8, u8, u8]
  format := ['<', 'I', 'H', 'H', 'H', 'B', 'B', 'B', 'B']
  orders := [0, 1, 2, 3, 4, 5, 6, 7]
  lengths := [1, 1, 1, 1, 1, 1, 1, 1]
  arrayLengths := [0, 0, 0, 0, 0, 0, 0, 0]
  crcExtra := 85

/-- HC_dialect.py:6204 `MAVLink_terrain_request_message` -/
def msg133 : MsgClass where
  id := 133
  name := "TERRAIN_REQUEST"
  fieldnames := ["lat", "lon", "grid_spacing", "mask"]
  orderedFieldnames := ["mask", "lat", "lon", "grid_spacing"]
  fieldtypes := [i32, i32, u16, u64]
  format := ['<', 'Q', 'i', 'i', 'H']
  orders := [1, 2, 3, 0]
  lengths := [1, 1, 1, 1]
  arrayLengths := [0, 0, 0, 0]
  crcExtra := 6

/-- HC_dialect.py:6239 `MAVLink_terrain_data_message` -/
def msg134 : MsgClass where
  id := 134
  name := "TERRAIN_DATA"
  fieldnames := ["lat", "lon", "grid_spacing", "gridbit", "data"]
  orderedFieldnames := ["lat", "lon", "grid_spacing", "data", "gridbit"]
  fieldtypes := [i32, i32, u16, u8, i16]
  format := ['<', 'i', 'i', 'H', '1', '6', 'h', 'B']
  orders := [0, 1, 2, 4, 3]
  lengths := [1, 1, 1, 16, 1]
  arrayLengths := [0, 0, 0, 16, 0]
  crcExtra := 229

/-- HC_dialect.py:6276 `MAVLink_terrain_check_message` -/
def msg135 : MsgClass where
  id := 135
  name := "TERRAIN_CHECK"
  fieldnames := ["lat", "lon"]
  orderedFieldnames := ["lat", "lon"]
  fieldtypes := [i32, i32]
  format := ['<', 'i', 'i']
  orders := [0, 1]
  lengths := [1, 1]
  arrayLengths := [0, 0]
  crcExtra := 203

/-- HC_dialect.py:6311 `MAVLink_terrain_report_message` -/
def msg136 : MsgClass where
  id := 136
  name := "TERRAIN_REPORT"
  fieldnames := ["lat", "lon", "spacing", "terrain_height", "current_height", "pending", "loaded"]
  orderedFieldnames := ["lat", "lon", "terrain_height", "current_height", "spacing", "pending", "loaded"]
  fieldtypes := [i32, i32, u16, f32, f32, u16, u16]
  format := ['<', 'i', 'i', 'f', 'f', 'H', 'H', 'H']
  orders := [0, 1, 4, 2, 3, 5, 6]
  lengths := [1, 1, 1, 1, 1, 1, 1]
  arrayLengths := [0, 0, 0, 0, 0, 0, 0]
  crcExtra := 1

/-- HC_dialect.py:6349 `MAVLink_scaled_pressure2_message` -/
def msg137 : MsgClass where
  id := 137
  name := "SCALED_PRESSURE2"
  fieldnames := ["time_boot_ms", "press_abs", "press_diff", "temperature"]
  orderedFieldnames := ["time_boot_ms", "press_abs", "press_diff", "temperature"]
  fieldtypes := [u32, f32, f32, f32]
  format := ['<', 'I', 'f', 'f', 'f']
  orders := [0, 1, 2, 3]
  lengths := [1, 1, 1, 1]
  arrayLengths := [0, 0, 0, 0]
  crcExtra := 97

/-- HC_dialect.py:6384 `MAVLink_att_pos_mocap_message` -/
def msg138 : MsgClass where
  id := 138
  name := "ATT_POS_MOCAP"
  fieldnames := ["time_usec", "q", "x", "y", "z"]
  orderedFieldnames := ["time_usec", "q", "x", "y", "z"]
  fieldtypes := [u64, f32, f32, f32, f32]
  format := ['<', 'Q', '4', 'f', 'f', 'f', 'f']
  orders := [0, 1, 2, 3, 4]
  lengths := [1, 4, 1, 1, 1]
  arrayLengths := [0, 4, 0, 0, 0]
  crcExtra := 109

/-- HC_dialect.py:6420 `MAVLink_set_actuator_control_target_message` -/
def msg139 : MsgClass where
  id := 139
  name := "SET_ACTUATOR_CONTROL_TARGET"
  fieldnames := ["time_usec", "group_mlx", "target_system", "target_component", "controls"]
  orderedFieldnames := ["time_usec", "controls", "group_mlx", "target_system", "target_component"]
  fieldtypes := [u64, u8, u8, u8, f32]
  format := ['<', 'Q', '8', 'f', 'B', 'B', 'B']
  orders := [0, 2, 3, 4, 1]
  lengths := [1, 8, 1, 1, 1]
  arrayLengths := [0, 8, 0, 0, 0]
  crcExtra := 168

/-- HC_dialect.py:6456 `MAVLink_actuator_control_target_message` -/
def msg140 : MsgClass where
  id := 140
  name := "ACTUATOR_CONTROL_TARGET"
  fieldnames := ["time_usec", "group_mlx", "controls"]
  orderedFieldnames := ["time_usec", "controls", "group_mlx"]
  fieldtypes := [u64, u8, f32]
  format := ['<', 'Q', '8', 'f', 'B']
  orders := [0, 2, 1]
  lengths := [1, 8, 1]
  arrayLengths := [0, 8, 0]
  crcExtra := 181

/-- HC_dialect.py:6490 `MAVLink_altitude_message` -/
def msg141 : MsgClass where
  id := 141
  name := "ALTITUDE"
  fieldnames := ["time_usec", "altitude_monotonic", "altitude_amsl", "altitude_local", "altitude_relative", "altitude_terrain", "bottom_clearance"]
  orderedFieldnames := ["time_usec", "altitude_monotonic", "altitude_amsl", "altitude_local", "altitude_relative", "altitude_terrain", "bottom_clearance"]
  fieldtypes := [u64, f32, f32, f32, f32, f32, f32]
  format := ['<', 'Q', 'f', 'f', 'f', 'f', 'f', 'f']
  orders := [0, 1, 2, 3, 4, 5, 6]
  lengths := [1, 1, 1, 1, 1, 1, 1]
  arrayLengths := [0, 0, 0, 0, 0, 0, 0]
  crcExtra := 47

/-- HC_dialect.py:6528 `MAVLink_resource_request_message` -/
def msg142 : MsgClass where
  id := 142
  name := "RESOURCE_REQUEST"
  fieldnames := ["request_id", "uri_type", "uri", "transfer_type", "storage"]
  orderedFieldnames := ["request_id", "uri_type", "uri", "transfer_type", "storage"]
  fieldtypes := [u8, u8, u8, u8, u8]
  format := ['<', 'B', 'B', '1', '2', '0', 'B', 'B', '1', '2', '0', 'B']
  orders := [0, 1, 2, 3, 4]
  lengths := [1, 1, 120, 1, 120]
  arrayLengths := [0, 0, 120, 0, 120]
  crcExtra := 72

/-- HC_dialect.py:6565 `MAVLink_scaled_pressure3_message` -/
def msg143 : MsgClass where
  id := 143
  name := "SCALED_PRESSURE3"
  fieldnames := ["time_boot_ms", "press_abs", "press_diff", "temperature"]
  orderedFieldnames := ["time_boot_ms", "press_abs", "press_diff", "temperature"]
  fieldtypes := [u32, f32, f32, f32]
  format := ['<', 'I', 'f', 'f', 'f']
  orders := [0, 1, 2, 3]
  lengths := [1, 1, 1, 1]
  arrayLengths := [0, 0, 0, 0]
  crcExtra := 18

/-- HC_dialect.py:6600 `MAVLink_control_system_state_message` -/
def msg146 : MsgClass where
  id := 146
  name := "CONTROL_SYSTEM_STATE"
  fieldnames := ["time_usec", "x_acc", "y_acc", "z_acc", "x_vel", "y_vel", "z_vel", "x_pos", "y_pos", "z_pos", "airspeed", "vel_variance", "pos_variance", "q", "roll_rate", "pitch_rate", "yaw_rate"]
  orderedFieldnames := ["time_usec", "x_acc", "y_acc", "z_acc", "x_vel", "y_vel", "z_vel", "x_pos", "y_pos", "z_pos", "airspeed", "vel_variance", "pos_variance", "q", "roll_rate", "pitch_rate", "yaw_rate"]
  fieldtypes := [u64, f32, f32, f32, f32, f32, f32, f32, f32, f32, f32, f32, f32, f32, f32, f32, f32]
  format := ['<', 'Q', 'f', 'f', 'f', 'f', 'f', 'f', 'f', 'f', 'f', 'f', '3', 'f', '3', 'f', '4', 'f', 'f', 'f', 'f']
  orders := [0, 1, 2, 3, 4, 5, 6, 7, 8, 9, 10, 11, 12, 13, 14, 15, 16]
  lengths := [1, 1, 1, 1, 1, 1, 1, 1, 1, 1, 1, 3, 3, 4, 1, 1, 1]
  arrayLengths := [0, 0, 0, 0, 0, 0, 0, 0, 0, 0, 0, 3, 3, 4, 0, 0, 0]
  crcExtra := 103

/-- HC_dialect.py:6649 `MAVLink_battery_status_message` -/
def msg147 : MsgClass where
  id := 147
  name := "BATTERY_STATUS"
  fieldnames := ["id", "battery_function", "type", "temperature", "voltages", "current_battery", "current_consumed", "energy_consumed", "battery_remaining"]
  orderedFieldnames := ["current_consumed", "energy_consumed", "temperature", "voltages", "current_battery", "id", "battery_function", "type", "battery_remaining"]
  fieldtypes := [u8, u8, u8, i16, u16, i16, i32, i32, i8]
  format := ['<', 'i', 'i', 'h', '1', '0', 'H', 'h', 'B', 'B', 'B', 'b']
  orders := [5, 6, 7, 2, 3, 4, 0, 1, 8]
  lengths := [1, 1, 1, 10, 1, 1, 1, 1, 1]
  arrayLengths := [0, 0, 0, 10, 0, 0, 0, 0, 0]
  crcExtra := 154

/-- HC_dialect.py:6689 `MAVLink_autopilot_version_message` -/
def msg148 : MsgClass where
  id := 148
  name := "AUTOPILOT_VERSION"
  fieldnames := ["capabilities", "main_sw_build_time", "main_sw_version", "mavlink_sw_version", "os_sw_version", "board_version", "main_custom_version", "mavlink_custom_version", "os_custom_version", "vendor_id", "product_id", "uid"]
  orderedFieldnames := ["capabilities", "main_sw_build_time", "main_sw_version", "mavlink_sw_version", "os_sw_version", "board_version", "uid", "vendor_id", "product_id", "main_custom_version", "mavlink_custom_version", "os_custom_version"]
  fieldtypes := [u64, u64, u32, u32, u32, u32, u8, u8, u8, u16, u16, u32]
  format := ['<', 'Q', 'Q', 'I', 'I', 'I', 'I', '3', 'I', 'H', 'H', '8', 'B', '8', 'B', '8', 'B']
  orders := [0, 1, 2, 3, 4, 5, 9, 10, 11, 7, 8, 6]
  lengths := [1, 1, 1, 1, 1, 1, 3, 1, 1, 8, 8, 8]
  arrayLengths := [0, 0, 0, 0, 0, 0, 3, 0, 0, 8, 8, 8]
  crcExtra := 121

/-- HC_dialect.py:6732 `MAVLink_landing_target_message` -/
def msg149 : MsgClass where
  id := 149
  name := "LANDING_TARGET"
  fieldnames := ["time_usec", "target_num", "frame", "angle_x", "angle_y", "distance", "size_x", "size_y"]
  orderedFieldnames := ["time_usec", "angle_x", "angle_y", "distance", "size_x", "size_y", "target_num", "frame"]
  fieldtypes := [u64, u8, u8, f32, f32, f32, f32, f32]
  format := ['<', 'Q', 'f', 'f', 'f', 'f', 'f', 'B', 'B']
  orders := [0, 6, 7, 1, 2, 3, 4, 5]
  lengths := [1, 1, 1, 1, 1, 1, 1, 1]
  arrayLengths := [0, 0, 0, 0, 0, 0, 0, 0]
  crcExtra := 200

/-- HC_dialect.py:6772 `MAVLink_vibration_message` -/
def msg241 : MsgClass where
  id := 241
  name := "VIBRATION"
  fieldnames := ["time_usec", "vibration_x", "vibration_y", "vibration_z", "clipping_0", "clipping_1", "clipping_2"]
  orderedFieldnames := ["time_usec", "vibration_x", "vibration_y", "vibration_z", "clipping_0", "clipping_1", "clipping_2"]
  fieldtypes := [u64, f32, f32, f32, u32, u32, u32]
  format := ['<', 'Q', 'f', 'f', 'f', 'I', 'I', 'I']
  orders := [0, 1, 2, 3, 4, 5, 6]
  lengths := [1, 1, 1, 1, 1, 1, 1]
  arrayLengths := [0, 0, 0, 0, 0, 0, 0]
  crcExtra := 90

/-- HC_dialect.py:6810 `MAVLink_home_position_message` -/
def msg242 : MsgClass where
  id := 242
  name := "HOME_POSITION"
  fieldnames := ["latitude", "longitude", "altitude", "x", "y", "z", "q", "approach_x", "approach_y", "approach_z"]
  orderedFieldnames := ["latitude", "longitude", "altitude", "x", "y", "z", "q", "approach_x", "approach_y", "approach_z"]
  fieldtypes := [i32, i32, f32, f32, f32, f32, f32, f32, f32, f32]
  format := ['<', 'i', 'i', 'f', 'f', 'f', 'f', '4', 'f', 'f', 'f', 'f']
  orders := [0, 1, 2, 3, 4, 5, 6, 7, 8, 9]
  lengths := [1, 1, 1, 1, 1, 1, 4, 1, 1, 1]
  arrayLengths := [0, 0, 0, 0, 0, 0, 4, 0, 0, 0]
  crcExtra := 166

/-- HC_dialect.py:6863 `MAVLink_set_home_position_message` -/
def msg243 : MsgClass where
  id := 243
  name := "SET_HOME_POSITION"
  fieldnames := ["target_system", "latitude", "longitude", "altitude", "x", "y", "z", "q", "approach_x", "approach_y", "approach_z"]
  orderedFieldnames := ["latitude", "longitude", "altitude", "x", "y", "z", "q", "approach_x", "approach_y", "approach_z", "target_system"]
  fieldtypes := [u8, i32, i32, f32, f32, f32, f32, f32, f32, f32, f32]
  format := ['<', 'i', 'i', 'f', 'f', 'f', 'f', '4', 'f', 'f', 'f', 'f', 'B']
  orders := [10, 0, 1, 2, 3, 4, 5, 6, 7, 8, 9]
  lengths := [1, 1, 1, 1, 1, 1, 4, 1, 1, 1, 1]
  arrayLengths := [0, 0, 0, 0, 0, 0, 4, 0, 0, 0, 0]
  crcExtra := 214

/-- HC_dialect.py:6915 `MAVLink_message_interval_message` -/
def msg244 : MsgClass where
  id := 244
  name := "MESSAGE_INTERVAL"
  fieldnames := ["message_id", "interval_us"]
  orderedFieldnames := ["interval_us", "message_id"]
  fieldtypes := [u16, i32]
  format := ['<', 'i', 'H']
  orders := [1, 0]
  lengths := [1, 1]
  arrayLengths := [0, 0]
  crcExtra := 95

/-- HC_dialect.py:6948 `MAVLink_extended_sys_state_message` -/
def msg245 : MsgClass where
  id := 245
  name := "EXTENDED_SYS_STATE"
  fieldnames := ["vtol_state", "landed_state"]
  orderedFieldnames := ["vtol_state", "landed_state"]
  fieldtypes := [u8, u8]
  format := ['<', 'B', 'B']
  orders := [0, 1]
  lengths := [1, 1]
  arrayLengths := [0, 0]
  crcExtra := 130

/-- HC_dialect.py:6981 `MAVLink_adsb_vehicle_message` -/
def msg246 : MsgClass where
  id := 246
  name := "ADSB_VEHICLE"
  fieldnames := ["ICAO_address", "lat", "lon", "altitude_type", "altitude", "heading", "hor_velocity", "ver_velocity", "callsign", "emitter_type", "tslc", "flags", "squawk"]
  orderedFieldnames := ["ICAO_address", "lat", "lon", "altitude", "heading", "hor_velocity", "ver_velocity", "flags", "squawk", "altitude_type", "callsign", "emitter_type", "tslc"]
  fieldtypes := [u32, i32, i32, u8, i32, u16, u16, u16, char, u8, u8, u16, u16]
  format := ['<', 'I', 'i', 'i', 'i', 'H', 'H', 'H', 'H', 'H', 'B', '9', 's', 'B', 'B']
  orders := [0, 1, 2, 9, 3, 4, 5, 6, 10, 11, 12, 7, 8]
  lengths := [1, 1, 1, 1, 1, 1, 1, 1, 1, 1, 1, 1, 1]
  arrayLengths := [0, 0, 0, 0, 0, 0, 0, 0, 0, 0, 9, 0, 0]
  crcExtra := 158

/-- HC_dialect.py:7025 `MAVLink_v2_extension_message` -/
def msg248 : MsgClass where
  id := 248
  name := "V2_EXTENSION"
  fieldnames := ["target_network", "target_system", "target_component", "message_type", "payload"]
  orderedFieldnames := ["message_type", "target_network", "target_system", "target_component", "payload"]
  fieldtypes := [u8, u8, u8, u16, u8]
  format := ['<', 'H', 'B', 'B', 'B', '2', '4', '9', 'B']
  orders := [1, 2, 3, 0, 4]
  lengths := [1, 1, 1, 1, 249]
  arrayLengths := [0, 0, 0, 0, 249]
  crcExtra := 8

/-- HC_dialect.py:7062 `MAVLink_memory_vect_message` -/
def msg249 : MsgClass where
  id := 249
  name := "MEMORY_VECT"
  fieldnames := ["address", "ver", "type", "value"]
  orderedFieldnames := ["address", "ver", "type", "value"]
  fieldtypes := [u16, u8, u8, i8]
  format := ['<', 'H', 'B', 'B', '3', '2', 'b']
  orders := [0, 1, 2, 3]
  lengths := [1, 1, 1, 32]
  arrayLengths := [0, 0, 0, 32]
  crcExtra := 204

/-- HC_dialect.py:7099 `MAVLink_debug_vect_message` -/
def msg250 : MsgClass where
  id := 250
  name := "DEBUG_VECT"
  fieldnames := ["name", "time_usec", "x", "y", "z"]
  orderedFieldnames := ["time_usec", "x", "y", "z", "name"]
  fieldtypes := [char, u64, f32, f32, f32]
  format := ['<', 'Q', 'f', 'f', 'f', '1', '0', 's']
  orders := [4, 0, 1, 2, 3]
  lengths := [1, 1, 1, 1, 1]
  arrayLengths := [0, 0, 0, 0, 10]
  crcExtra := 49

/-- HC_dialect.py:7135 `MAVLink_named_value_float_message` -/
def msg251 : MsgClass where
  id := 251
  name := "NAMED_VALUE_FLOAT"
  fieldnames := ["time_boot_ms", "name", "value"]
  orderedFieldnames := ["time_boot_ms", "value", "name"]
  fieldtypes := [u32, char, f32]
  format := ['<', 'I', 'f', '1', '0', 's']
  orders := [0, 2, 1]
  lengths := [1, 1, 1]
  arrayLengths := [0, 0, 10]
  crcExtra := 170

/-- HC_dialect.py:7171 `MAVLink_named_value_int_message` -/
def msg252 : MsgClass where
  id := 252
  name := "NAMED_VALUE_INT"
  fieldnames := ["time_boot_ms", "name", "value"]
  orderedFieldnames := ["time_boot_ms", "value", "name"]
  fieldtypes := [u32, char, i32]
  format := ['<', 'I', 'i', '1', '0', 's']
  orders := [0, 2, 1]
  lengths := [1, 1, 1]
  arrayLengths := [0, 0, 10]
  crcExtra := 44

/-- HC_dialect.py:7207 `MAVLink_statustext_message` -/
def msg253 : MsgClass where
  id := 253
  name := "STATUSTEXT"
  fieldnames := ["severity", "text"]
  orderedFieldnames := ["severity", "text"]
  fieldtypes := [u8, char]
  format := ['<', 'B', '5', '0', 's']
  orders := [0, 1]
  lengths := [1, 1]
  arrayLengths := [0, 50]
  crcExtra := 83

/-- HC_dialect.py:7245 `MAVLink_debug_message` -/
def msg254 : MsgClass where
  id := 254
  name := "DEBUG"
  fieldnames := ["time_boot_ms", "ind", "value"]
  orderedFieldnames := ["time_boot_ms", "value", "ind"]
  fieldtypes := [u32, u8, f32]
  format := ['<', 'I', 'f', 'B']
  orders := [0, 2, 1]
  lengths := [1, 1, 1]
  arrayLengths := [0, 0, 0]
  crcExtra := 46

/-- HC_dialect.py:7281 `MAVLink_altimeter_sensor_message` -/
def msg211 : MsgClass where
  id := 211
  name := "ALTIMETER_SENSOR"
  fieldnames := ["time_boot_ms", "Altitude_front", "Altitude_back"]
  orderedFieldnames := ["time_boot_ms", "Altitude_front", "Altitude_back"]
  fieldtypes := [u32, f32, f32]
  format := ['<', 'I', 'f', 'f']
  orders := [0, 1, 2]
  lengths := [1, 1, 1]
  arrayLengths := [0, 0, 0]
  crcExtra := 154

/-- HC_dialect.py:7315 `MAVLink_scaled_svs_message` -/
def msg212 : MsgClass where
  id := 212
  name := "SCALED_SVS"
  fieldnames := ["time_boot_ms", "Speed_of_Sound", "Depth", "Temperature", "Status", "Reserved"]
  orderedFieldnames := ["time_boot_ms", "Speed_of_Sound", "Depth", "Reserved", "Temperature", "Status"]
  fieldtypes := [u32, f32, f32, u16, u8, f32]
  format := ['<', 'I', 'f', 'f', 'f', 'H', 'B']
  orders := [0, 1, 2, 4, 5, 3]
  lengths := [1, 1, 1, 1, 1, 1]
  arrayLengths := [0, 0, 0, 0, 0, 0]
  crcExtra := 205

/-- HC_dialect.py:7352 `MAVLink_ctd_status_message` -/
def msg213 : MsgClass where
  id := 213
  name := "CTD_STATUS"
  fieldnames := ["time_boot_ms", "Conductivity", "Depth", "Temperature", "Status", "Reserved"]
  orderedFieldnames := ["time_boot_ms", "Conductivity", "Depth", "Reserved", "Temperature", "Status"]
  fieldtypes := [u32, f32, f32, u16, u8, f32]
  format := ['<', 'I', 'f', 'f', 'f', 'H', 'B']
  orders := [0, 1, 2, 4, 5, 3]
  lengths := [1, 1, 1, 1, 1, 1]
  arrayLengths := [0, 0, 0, 0, 0, 0]
  crcExtra := 188

/-- HC_dialect.py:7389 `MAVLink_motor_status_message` -/
def msg214 : MsgClass where
  id := 214
  name := "MOTOR_STATUS"
  fieldnames := ["time_boot_ms", "motor_num", "rpm", "voltage", "current", "Status", "Fault", "temperature", "pressure"]
  orderedFieldnames := ["time_boot_ms", "pressure", "rpm", "voltage", "current", "temperature", "motor_num", "Status", "Fault"]
  fieldtypes := [u32, u8, i16, u16, u16, u8, u8, u16, f32]
  format := ['<', 'I', 'f', 'h', 'H', 'H', 'H', 'B', 'B', 'B']
  orders := [0, 6, 2, 3, 4, 7, 8, 5, 1]
  lengths := [1, 1, 1, 1, 1, 1, 1, 1, 1]
  arrayLengths := [0, 0, 0, 0, 0, 0, 0, 0, 0]
  crcExtra := 142

/-- HC_dialect.py:7430 `MAVLink_rf_modem_status_message` -/
def msg215 : MsgClass where
  id := 215
  name := "RF_MODEM_STATUS"
  fieldnames := ["time_boot_ms", "Bit_Rate", "Status", "current", "Reserved", "Reserved2"]
  orderedFieldnames := ["time_boot_ms", "Bit_Rate", "Reserved", "Reserved2", "current", "Status"]
  fieldtypes := [u32, u32, u8, u16, f32, f32]
  format := ['<', 'I', 'I', 'f', 'f', 'H', 'B']
  orders := [0, 1, 5, 4, 2, 3]
  lengths := [1, 1, 1, 1, 1, 1]
  arrayLengths := [0, 0, 0, 0, 0, 0]
  crcExtra := 203

/-- HC_dialect.py:7467 `MAVLink_system_onoff_req_message` -/
def msg216 : MsgClass where
  id := 216
  name := "SYSTEM_ONOFF_REQ"
  fieldnames := ["time_boot_ms", "status"]
  orderedFieldnames := ["time_boot_ms", "status"]
  fieldtypes := [u32, u16]
  format := ['<', 'I', 'H']
  orders := [0, 1]
  lengths := [1, 1]
  arrayLengths := [0, 0]
  crcExtra := 190

/-- HC_dialect.py:7501 `MAVLink_system_onoff_status_message` -/
def msg217 : MsgClass where
  id := 217
  name := "SYSTEM_ONOFF_STATUS"
  fieldnames := ["time_boot_ms", "status"]
  orderedFieldnames := ["time_boot_ms", "status"]
  fieldtypes := [u32, u16]
  format := ['<', 'I', 'H']
  orders := [0, 1]
  lengths := [1, 1]
  arrayLengths := [0, 0]
  crcExtra := 79

/-- HC_dialect.py:7535 `MAVLink_chamber_status_message` -/
def msg218 : MsgClass where
  id := 218
  name := "CHAMBER_STATUS"
  fieldnames := ["time_boot_ms", "chamber_num", "pressure", "temperature", "humidity"]
  orderedFieldnames := ["time_boot_ms", "temperature", "humidity", "chamber_num", "pressure"]
  fieldtypes := [u32, u8, u8, u16, u16]
  format := ['<', 'I', 'H', 'H', 'B', 'B']
  orders := [0, 3, 4, 1, 2]
  lengths := [1, 1, 1, 1, 1]
  arrayLengths := [0, 0, 0, 0, 0]
  crcExtra := 28

/-- HC_dialect.py:7572 `MAVLink_task_status_message` -/
def msg219 : MsgClass where
  id := 219
  name := "TASK_STATUS"
  fieldnames := ["taskID", "task_status", "time", "task_time", "task_count", "parse_success_count", "parse_error_count", "interupt_count", "rst_count", "err1", "err2"]
  orderedFieldnames := ["time", "task_time", "task_count", "parse_success_count", "parse_error_count", "interupt_count", "rst_count", "taskID", "task_status", "err1", "err2"]
  fieldtypes := [u8, u8, u16, u16, u16, u16, u16, u16, u16, u8, u8]
  format := ['<', 'H', 'H', 'H', 'H', 'H', 'H', 'H', 'B', 'B', 'B', 'B']
  orders := [7, 8, 0, 1, 2, 3, 4, 5, 6, 9, 10]
  lengths := [1, 1, 1, 1, 1, 1, 1, 1, 1, 1, 1]
  arrayLengths := [0, 0, 0, 0, 0, 0, 0, 0, 0, 0, 0]
  crcExtra := 60

/-- HC_dialect.py:7614 `MAVLink_param_est_test_message` -/
def msg220 : MsgClass where
  id := 220
  name := "PARAM_EST_TEST"
  fieldnames := ["time_boot_ms_imu", "time_boot_ms_io", "gyro_x", "gyro_y", "gyro_z", "gyro_dot_x", "gyro_dot_y", "gyro_dot_z", "accel_x", "accel_y", "accel_z", "accel_no_g_x", "accel_no_g_y", "accel_no_g_z", "dvl_x", "dvl_y", "dvl_z", "roll", "pitch", "yaw", "motor1_rpm", "motor2_rpm", "motor3_rpm", "motor4_rpm", "motor5_rpm", "motor6_rpm", "motor7_rpm"]
  orderedFieldnames := ["time_boot_ms_imu", "time_boot_ms_io", "gyro_x", "gyro_y", "gyro_z", "gyro_dot_x", "gyro_dot_y", "gyro_dot_z", "accel_x", "accel_y", "accel_z", "accel_no_g_x", "accel_no_g_y", "accel_no_g_z", "dvl_x", "dvl_y", "dvl_z", "roll", "pitch", "yaw", "motor1_rpm", "motor2_rpm", "motor3_rpm", "motor4_rpm", "motor5_rpm", "motor6_rpm", "motor7_rpm"]
  fieldtypes := [u32, u32, f32, f32, f32, f32, f32, f32, f32, f32, f32, f32, f32, f32, f32, f32, f32, f32, f32, f32, i16, i16, i16, i16, i16, i16, i16]
  format := ['<', 'I', 'I', 'f', 'f', 'f', 'f', 'f', 'f', 'f', 'f', 'f', 'f', 'f', 'f', 'f', 'f', 'f', 'f', 'f', 'f', 'h', 'h', 'h', 'h', 'h', 'h', 'h']
  orders := [0, 1, 2, 3, 4, 5, 6, 7, 8, 9, 10, 11, 12, 13, 14, 15, 16, 17, 18, 19, 20, 21, 22, 23, 24, 25, 26]
  lengths := [1, 1, 1, 1, 1, 1, 1, 1, 1, 1, 1, 1, 1, 1, 1, 1, 1, 1, 1, 1, 1, 1, 1, 1, 1, 1, 1]
  arrayLengths := [0, 0, 0, 0, 0, 0, 0, 0, 0, 0, 0, 0, 0, 0, 0, 0, 0, 0, 0, 0, 0, 0, 0, 0, 0, 0, 0]
  crcExtra := 199

/-- HC_dialect.py:7673 `MAVLink_motor_cmd_message` -/
def msg221 : MsgClass where
  id := 221
  name := "MOTOR_CMD"
  fieldnames := ["mode", "speed"]
  orderedFieldnames := ["speed", "mode"]
  fieldtypes := [u8, i16]
  format := ['<', '1', '0', 'h', 'B']
  orders := [1, 0]
  lengths := [10, 1]
  arrayLengths := [10, 0]
  crcExtra := 226

/-- HC_dialect.py:7707 `MAVLink_bathymetry_message` -/
def msg222 : MsgClass where
  id := 222
  name := "BATHYMETRY"
  fieldnames := ["time_usec", "depth", "altitude", "distance", "range_from_body", "seabed_phi", "seabed_theta"]
  orderedFieldnames := ["time_usec", "depth", "altitude", "distance", "range_from_body", "seabed_phi", "seabed_theta"]
  fieldtypes := [u64, f32, f32, f32, f32, f32, f32]
  format := ['<', 'Q', 'f', 'f', 'f', 'f', 'f', 'f']
  orders := [0, 1, 2, 3, 4, 5, 6]
  lengths := [1, 1, 1, 1, 1, 1, 1]
  arrayLengths := [0, 0, 0, 0, 0, 0, 0]
  crcExtra := 216

/-- HC_dialect.py:7745 `MAVLink_power_consumption_motors_message` -/
def msg223 : MsgClass where
  id := 223
  name := "POWER_CONSUMPTION_MOTORS"
  fieldnames := ["time_boot_ms", "current_ml", "current_mr", "current_p", "current_yb", "current_yf", "current_wl", "current_wr", "battery_voltage"]
  orderedFieldnames := ["time_boot_ms", "current_ml", "current_mr", "current_p", "current_yb", "current_yf", "current_wl", "current_wr", "battery_voltage"]
  fieldtypes := [u32, f32, f32, f32, f32, f32, f32, f32, f32]
  format := ['<', 'I', 'f', 'f', 'f', 'f', 'f', 'f', 'f', 'f']
  orders := [0, 1, 2, 3, 4, 5, 6, 7, 8]
  lengths := [1, 1, 1, 1, 1, 1, 1, 1, 1]
  arrayLengths := [0, 0, 0, 0, 0, 0, 0, 0, 0]
  crcExtra := 143

/-- HC_dialect.py:7785 `MAVLink_power_consumption_2_message` -/
def msg224 : MsgClass where
  id := 224
  name := "POWER_CONSUMPTION_2"
  fieldnames := ["time_boot_ms", "current_1", "voltage_1", "current_2", "voltage_2", "current_3", "voltage_3", "current_4", "voltage_4"]
  orderedFieldnames := ["time_boot_ms", "current_1", "voltage_1", "current_2", "voltage_2", "current_3", "voltage_3", "current_4", "voltage_4"]
  fieldtypes := [u32, f32, f32, f32, f32, f32, f32, f32, f32]
  format := ['<', 'I', 'f', 'f', 'f', 'f', 'f', 'f', 'f', 'f']
  orders := [0, 1, 2, 3, 4, 5, 6, 7, 8]
  lengths := [1, 1, 1, 1, 1, 1, 1, 1, 1]
  arrayLengths := [0, 0, 0, 0, 0, 0, 0, 0, 0]
  crcExtra := 48

/-- HC_dialect.py:7825 `MAVLink_system_status_2_message` -/
def msg225 : MsgClass where
  id := 225
  name := "SYSTEM_STATUS_2"
  fieldnames := ["time_boot_ms", "hc_mode", "hc_system_status", "hc_err_id", "debug1", "debug2"]
  orderedFieldnames := ["time_boot_ms", "hc_err_id", "debug1", "debug2", "hc_mode", "hc_system_status"]
  fieldtypes := [u32, u16, u16, u32, f32, f32]
  format := ['<', 'I', 'I', 'f', 'f', 'H', 'H']
  orders := [0, 4, 5, 1, 2, 3]
  lengths := [1, 1, 1, 1, 1, 1]
  arrayLengths := [0, 0, 0, 0, 0, 0]
  crcExtra := 101

/-- HC_dialect.py:7862 `MAVLink_gps_timing_message` -/
def msg226 : MsgClass where
  id := 226
  name := "GPS_TIMING"
  fieldnames := ["time_boot_ms", "tow_ms", "tow_ns", "accuracy", "local_time_s", "gps_fix", "rtc_month", "rtc_day"]
  orderedFieldnames := ["time_boot_ms", "tow_ms", "tow_ns", "accuracy", "local_time_s", "gps_fix", "rtc_month", "rtc_day"]
  fieldtypes := [u32, i32, i32, u32, f32, u8, u8, u8]
  format := ['<', 'I', 'i', 'i', 'I', 'f', 'B', 'B', 'B']
  orders := [0, 1, 2, 3, 4, 5, 6, 7]
  lengths := [1, 1, 1, 1, 1, 1, 1, 1]
  arrayLengths := [0, 0, 0, 0, 0, 0, 0, 0]
  crcExtra := 149

/-- HC_dialect.py:7901 `MAVLink_magnetometer_calibration_message` -/
def msg227 : MsgClass where
  id := 227
  name := "MAGNETOMETER_CALIBRATION"
  fieldnames := ["time_boot_ms", "bias", "scaling_matrix"]
  orderedFieldnames := ["time_boot_ms", "bias", "scaling_matrix"]
  fieldtypes := [u32, f32, f32]
  format := ['<', 'I', '3', 'f', '9', 'f']
  orders := [0, 1, 2]
  lengths := [1, 3, 9]
  arrayLengths := [0, 3, 9]
  crcExtra := 37

/-- HC_dialect.py:7935 `MAVLink_algorithm_status_message` -/
def msg228 : MsgClass where
  id := 228
  name := "ALGORITHM_STATUS"
  fieldnames := ["time_boot_ms", "rate", "nav_type", "external_heading", "calibrated", "reset", "hc_maneuver", "hc_maneuver2", "velocity_inov", "attitude_cov", "pos_cov"]
  orderedFieldnames := ["time_boot_ms", "nav_type", "velocity_inov", "attitude_cov", "pos_cov", "rate", "external_heading", "calibrated", "reset", "hc_maneuver", "hc_maneuver2"]
  fieldtypes := [u32, u16, u32, u8, u8, u8, u8, u8, f32, f32, f32]
  format := ['<', 'I', 'I', 'f', 'f', 'f', 'H', 'B', 'B', 'B', 'B', 'B']
  orders := [0, 5, 1, 6, 7, 8, 9, 10, 2, 3, 4]
  lengths := [1, 1, 1, 1, 1, 1, 1, 1, 1, 1, 1]
  arrayLengths := [0, 0, 0, 0, 0, 0, 0, 0, 0, 0, 0]
  crcExtra := 8

/-- HC_dialect.py:7977 `MAVLink_dvl_bt_raw_message` -/
def msg229 : MsgClass where
  id := 229
  name := "DVL_BT_RAW"
  fieldnames := ["time_boot_ms", "v1", "v2", "v3", "v_err", "wm_v1", "wm_v2", "wm_v3", "wm_v4", "range_1", "range_2", "range_3", "range_4", "good_beams_precentege", "ensamble_number"]
  orderedFieldnames := ["time_boot_ms", "range_1", "range_2", "range_3", "range_4", "ensamble_number", "v1", "v2", "v3", "v_err", "wm_v1", "wm_v2", "wm_v3", "wm_v4", "good_beams_precentege"]
  fieldtypes := [u32, i16, i16, i16, i16, i16, i16, i16, i16, u32, u32, u32, u32, u8, u32]
  format := ['<', 'I', 'I', 'I', 'I', 'I', 'I', 'h', 'h', 'h', 'h', 'h', 'h', 'h', 'h', 'B']
  orders := [0, 6, 7, 8, 9, 10, 11, 12, 13, 1, 2, 3, 4, 14, 5]
  lengths := [1, 1, 1, 1, 1, 1, 1, 1, 1, 1, 1, 1, 1, 1, 1]
  arrayLengths := [0, 0, 0, 0, 0, 0, 0, 0, 0, 0, 0, 0, 0, 0, 0]
  crcExtra := 18

/-- HC_dialect.py:8023 `MAVLink_dvl_bt_scaled_message` -/
def msg230 : MsgClass where
  id := 230
  name := "DVL_BT_SCALED"
  fieldnames := ["time_boot_ms", "v1", "v2", "v3", "altitude", "distance"]
  orderedFieldnames := ["time_boot_ms", "v1", "v2", "v3", "altitude", "distance"]
  fieldtypes := [u32, f32, f32, f32, f32, f32]
  format := ['<', 'I', 'f', 'f', 'f', 'f', 'f']
  orders := [0, 1, 2, 3, 4, 5]
  lengths := [1, 1, 1, 1, 1, 1]
  arrayLengths := [0, 0, 0, 0, 0, 0]
  crcExtra := 72

/-- HC_dialect.py:8060 `MAVLink_dvl_bt_highres_message` -/
def msg231 : MsgClass where
  id := 231
  name := "DVL_BT_HIGHRES"
  fieldnames := ["time_boot_ms", "V1", "V2", "V3", "V4", "Bt_Dmg_1", "Bt_Dmg_2", "Bt_Dmg_3", "Bt_Dmg_4", "Ref_Frame", "Wm_V1", "Wm_V2", "Wm_V3", "Wm_V4", "Svs", "Slant_range", "Axes_delta_range", "Vertical_range", "Percent_good_4bm", "Percent_good_12bm", "Percent_good_34bm", "Bm_1_raw_range", "Bm_2_raw_range", "Bm_3_raw_range", "Bm_4_raw_range"]
  orderedFieldnames := ["time_boot_ms", "V1", "V2", "V3", "V4", "Bt_Dmg_1", "Bt_Dmg_2", "Bt_Dmg_3", "Bt_Dmg_4", "Wm_V1", "Wm_V2", "Wm_V3", "Wm_V4", "Svs", "Slant_range", "Axes_delta_range", "Vertical_range", "Bm_1_raw_range", "Bm_2_raw_range", "Bm_3_raw_range", "Bm_4_raw_range", "Ref_Frame", "Percent_good_4bm", "Percent_good_12bm", "Percent_good_34bm"]
  fieldtypes := [u32, i32, i32, i32, i32, i32, i32, i32, i32, u8, i32, i32, i32, i32, u32, u32, u32, u32, u8, u8, u8, u32, u32, u32, u32]
  format := ['<', 'I', 'i', 'i', 'i', 'i', 'i', 'i', 'i', 'i', 'i', 'i', 'i', 'i', 'I', 'I', 'I', 'I', 'I', 'I', 'I', 'I', 'B', 'B', 'B', 'B']
  orders := [0, 1, 2, 3, 4, 5, 6, 7, 8, 21, 9, 10, 11, 12, 13, 14, 15, 16, 22, 23, 24, 17, 18, 19, 20]
  lengths := [1, 1, 1, 1, 1, 1, 1, 1, 1, 1, 1, 1, 1, 1, 1, 1, 1, 1, 1, 1, 1, 1, 1, 1, 1]
  arrayLengths := [0, 0, 0, 0, 0, 0, 0, 0, 0, 0, 0, 0, 0, 0, 0, 0, 0, 0, 0, 0, 0, 0, 0, 0, 0]
  crcExtra := 168

/-- HC_dialect.py:8116 `MAVLink_dvl_wp_raw_message` -/
def msg232 : MsgClass where
  id := 232
  name := "DVL_WP_RAW"
  fieldnames := ["time_boot_ms", "Depth_Cell_ID", "v1", "v2", "v3", "v_err", "Depth_Correlation_1", "Depth_Correlation_2", "Depth_Correlation_3", "Depth_Correlation_4", "Depth_Echo_Intensity_1", "Depth_Echo_Intensity_2", "Depth_Echo_Intensity_3", "Depth_Echo_Intensity_4", "Percent_Good_1", "Percent_Good_2", "Percent_Good_3", "Percent_Good_4", "status"]
  orderedFieldnames := ["time_boot_ms", "v1", "v2", "v3", "v_err", "Depth_Cell_ID", "Depth_Correlation_1", "Depth_Correlation_2", "Depth_Correlation_3", "Depth_Correlation_4", "Depth_Echo_Intensity_1", "Depth_Echo_Intensity_2", "Depth_Echo_Intensity_3", "Depth_Echo_Intensity_4", "Percent_Good_1", "Percent_Good_2", "Percent_Good_3", "Percent_Good_4", "status"]
  fieldtypes := [u32, u8, i16, i16, i16, i16, u8, u8, u8, u8, u8, u8, u8, u8, u8, u8, u8, u8, u8]
  format := ['<', 'I', 'h', 'h', 'h', 'h', 'B', 'B', 'B', 'B', 'B', 'B', 'B', 'B', 'B', 'B', 'B', 'B', 'B', 'B']
  orders := [0, 5, 1, 2, 3, 4, 6, 7, 8, 9, 10, 11, 12, 13, 14, 15, 16, 17, 18]
  lengths := [1, 1, 1, 1, 1, 1, 1, 1, 1, 1, 1, 1, 1, 1, 1, 1, 1, 1, 1]
  arrayLengths := [0, 0, 0, 0, 0, 0, 0, 0, 0, 0, 0, 0, 0, 0, 0, 0, 0, 0, 0]
  crcExtra := 224

/-- HC_dialect.py:8166 `MAVLink_time_date_info_message` -/
def msg233 : MsgClass where
  id := 233
  name := "TIME_DATE_INFO"
  fieldnames := ["time_boot_ms", "year", "month", "day", "hours", "minutes", "seconds", "millisec"]
  orderedFieldnames := ["time_boot_ms", "year", "millisec", "month", "day", "hours", "minutes", "seconds"]
  fieldtypes := [u32, u16, u8, u8, u8, u8, u8, u16]
  format := ['<', 'I', 'H', 'H', 'B', 'B', 'B', 'B', 'B']
  orders := [0, 1, 3, 4, 5, 6, 7, 2]
  lengths := [1, 1, 1, 1, 1, 1, 1, 1]
  arrayLengths := [0, 0, 0, 0, 0, 0, 0, 0]
  crcExtra := 95

/-- HC_dialect.py:8206 `MAVLink_pinger_data_message` -/
def msg234 : MsgClass where
  id := 234
  name := "PINGER_DATA"
  fieldnames := ["time_boot_ms", "range", "azimuth"]
  orderedFieldnames := ["time_boot_ms", "range", "azimuth"]
  fieldtypes := [u32, f32, f32]
  format := ['<', 'I', 'f', 'f']
  orders := [0, 1, 2]
  lengths := [1, 1, 1]
  arrayLengths := [0, 0, 0]
  crcExtra := 126

/-- HC_dialect.py:8240 `MAVLink_hc_acoustic_pos_message` -/
def msg235 : MsgClass where
  id := 235
  name := "HC_ACOUSTIC_POS"
  fieldnames := ["time_boot_ms", "range", "azimuth", "lat_1", "lon_1", "tow_1"]
  orderedFieldnames := ["time_boot_ms", "range", "azimuth", "lat_1", "lon_1", "tow_1"]
  fieldtypes := [u32, f32, f32, i32, i32, u32]
  format := ['<', 'I', 'f', 'f', 'i', 'i', 'I']
  orders := [0, 1, 2, 3, 4, 5]
  lengths := [1, 1, 1, 1, 1, 1]
  arrayLengths := [0, 0, 0, 0, 0, 0]
  crcExtra := 88

/-- HC_dialect.py:8277 `MAVLink_debug_msg_1_message` -/
def msg236 : MsgClass where
  id := 236
  name := "DEBUG_MSG_1"
  fieldnames := ["time_boot_ms", "debug_1_1", "debug_1_2", "debug_1_3", "debug_1_4", "debug_1_5", "debug_1_6"]
  orderedFieldnames := ["time_boot_ms", "debug_1_1", "debug_1_2", "debug_1_3", "debug_1_4", "debug_1_5", "debug_1_6"]
  fieldtypes := [u32, f32, f32, f32, f32, f32, f32]
  format := ['<', 'I', 'f', 'f', 'f', 'f', 'f', 'f']
  orders := [0, 1, 2, 3, 4, 5, 6]
  lengths := [1, 1, 1, 1, 1, 1, 1]
  arrayLengths := [0, 0, 0, 0, 0, 0, 0]
  crcExtra := 94

/-- HC_dialect.py:8315 `MAVLink_hc_acoustic_channel_message` -/
def msg237 : MsgClass where
  id := 237
  name := "HC_ACOUSTIC_CHANNEL"
  fieldnames := ["time_boot_ms", "mpd", "psnr", "agc", "spd", "crc_pass", "ccerr", "source", "destination"]
  orderedFieldnames := ["time_boot_ms", "mpd", "psnr", "agc", "spd", "crc_pass", "ccerr", "source", "destination"]
  fieldtypes := [u32, f32, f32, i32, f32, u8, u8, u8, u8]
  format := ['<', 'I', 'f', 'f', 'i', 'f', 'B', 'B', 'B', 'B']
  orders := [0, 1, 2, 3, 4, 5, 6, 7, 8]
  lengths := [1, 1, 1, 1, 1, 1, 1, 1, 1]
  arrayLengths := [0, 0, 0, 0, 0, 0, 0, 0, 0]
  crcExtra := 210

/-- HC_dialect.py:8355 `MAVLink_acoustic_transmission_log_message` -/
def msg238 : MsgClass where
  id := 238
  name := "ACOUSTIC_TRANSMISSION_LOG"
  fieldnames := ["time_boot_ms", "tow_ms", "count", "slot_num", "data"]
  orderedFieldnames := ["time_boot_ms", "tow_ms", "count", "slot_num", "data"]
  fieldtypes := [u32, i32, u8, u8, u8]
  format := ['<', 'I', 'i', 'B', 'B', '2', '0', '0', 'B']
  orders := [0, 1, 2, 3, 4]
  lengths := [1, 1, 1, 1, 200]
  arrayLengths := [0, 0, 0, 0, 200]
  crcExtra := 143

/-- `mavlink_map` in insertion order, HC_dialect.py:8392-8548. -/
def mavlinkMap : List MsgClass :=
  [msg0, msg1, msg2, msg4, msg5, msg6, msg7, msg11, msg20, msg21,
   msg22, msg23, msg24, msg25, msg26, msg27, msg28, msg29, msg30, msg31,
   msg32, msg33, msg34, msg35, msg36, msg37, msg38, msg39, msg40, msg41,
   msg42, msg43, msg44, msg45, msg46, msg47, msg48, msg49, msg50, msg54,
   msg55, msg61, msg62, msg63, msg64, msg65, msg66, msg67, msg69, msg70,
   msg73, msg74, msg75, msg76, msg77, msg81, msg82, msg83, msg84, msg85,
   msg86, msg87, msg89, msg90, msg91, msg92, msg100, msg101, msg102, msg103,
   msg104, msg105, msg106, msg107, msg108, msg109, msg110, msg111, msg112, msg113,
   msg114, msg115, msg116, msg117, msg118, msg119, msg120, msg121, msg122, msg123,
   msg124, msg125, msg126, msg127, msg128, msg129, msg130, msg131, msg132, msg133,
   msg134, msg135, msg136, msg137, msg138, msg139, msg140, msg141, msg142, msg143,
   msg146, msg147, msg148, msg149, msg241, msg242, msg243, msg244, msg245, msg246,
   msg248, msg249, msg250, msg251, msg252, msg253, msg254, msg211, msg212, msg213,
   msg214, msg215, msg216, msg217, msg218, msg219, msg220, msg221, msg222, msg223,
   msg224, msg225, msg226, msg227, msg228, msg229, msg230, msg231, msg232, msg233,
   msg234, msg235, msg236, msg237, msg238]

end Dialect
end NR
