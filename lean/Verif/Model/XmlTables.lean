import Verif.Model.Dialect
/-
GENERATED by tools/gen_xml.py from the text of /repo/mavlink_utils/HC_dialect.xml, minimal_dialect.xml, HC_dialect.py and
minimal_dialect.py. Descriptions, units, print formats and the parameters of commands are left out. The type
`uint8_t_mavlink_version` is a `uint8_t`. A value that an entry of an enumeration does not give is `none`.
-/
namespace NR

/-- A `<field type="…" name="…">`, e.g. HC_dialect.xml:1828; `count` is the number in brackets of the type, 0 without. -/
structure XmlField where
  name : String
  type : CType
  count : Nat
  deriving DecidableEq, Repr

/-- A `<message id="…" name="…">`, e.g. HC_dialect.xml:1826-1834. -/
structure XmlMsg where
  id : Nat
  name : String
  fields : List XmlField
  deriving DecidableEq, Repr

/-- An `<enum name="…">` with its entries, e.g. HC_dialect.xml:5-69. -/
structure XmlEnum where
  name : String
  entries : List (Option Nat × String)
  deriving DecidableEq, Repr

/-- A dictionary of Python's `enums`: `enums['…'] = {}` followed by `enums['…'][value] = EnumEntry('…', …)` for each entry, e.g.
HC_dialect.py:268-271. -/
structure PyEnum where
  name : String
  entries : List (Nat × String)
  deriving DecidableEq, Repr

namespace HcXml
open CType

/-- HC_dialect.xml:1826-1834 -/
def msg0 : XmlMsg := ⟨0, "HEARTBEAT",
  [⟨"type", u8, 0⟩, ⟨"autopilot", u8, 0⟩, ⟨"base_mode", u8, 0⟩, ⟨"custom_mode", u32, 0⟩, ⟨"system_status", u8, 0⟩,
    ⟨"mavlink_version", u8, 0⟩]⟩

/-- HC_dialect.xml:1835-1850 -/
def msg1 : XmlMsg := ⟨1, "SYS_STATUS",
  [⟨"onboard_control_sensors_present", u32, 0⟩, ⟨"onboard_control_sensors_enabled", u32, 0⟩,
    ⟨"onboard_control_sensors_health", u32, 0⟩, ⟨"load", u16, 0⟩, ⟨"voltage_battery", u16, 0⟩,
    ⟨"current_battery", i16, 0⟩, ⟨"battery_remaining", i8, 0⟩, ⟨"drop_rate_comm", u16, 0⟩, ⟨"errors_comm", u16, 0⟩,
    ⟨"errors_count1", u16, 0⟩, ⟨"errors_count2", u16, 0⟩, ⟨"errors_count3", u16, 0⟩, ⟨"errors_count4", u16, 0⟩]⟩

/-- HC_dialect.xml:1851-1855 -/
def msg2 : XmlMsg := ⟨2, "SYSTEM_TIME",
  [⟨"time_unix_usec", u64, 0⟩, ⟨"time_boot_ms", u32, 0⟩]⟩

/-- HC_dialect.xml:1857-1863 -/
def msg4 : XmlMsg := ⟨4, "PING",
  [⟨"time_usec", u64, 0⟩, ⟨"seq", u32, 0⟩, ⟨"target_system", u8, 0⟩, ⟨"target_component", u8, 0⟩]⟩

/-- HC_dialect.xml:1864-1870 -/
def msg5 : XmlMsg := ⟨5, "CHANGE_OPERATOR_CONTROL",
  [⟨"target_system", u8, 0⟩, ⟨"control_request", u8, 0⟩, ⟨"version", u8, 0⟩, ⟨"passkey", char, 25⟩]⟩

/-- HC_dialect.xml:1871-1876 -/
def msg6 : XmlMsg := ⟨6, "CHANGE_OPERATOR_CONTROL_ACK",
  [⟨"gcs_system_id", u8, 0⟩, ⟨"control_request", u8, 0⟩, ⟨"ack", u8, 0⟩]⟩

/-- HC_dialect.xml:1877-1880 -/
def msg7 : XmlMsg := ⟨7, "AUTH_KEY",
  [⟨"key", char, 32⟩]⟩

/-- HC_dialect.xml:1881-1886 -/
def msg11 : XmlMsg := ⟨11, "SET_MODE",
  [⟨"target_system", u8, 0⟩, ⟨"base_mode", u8, 0⟩, ⟨"custom_mode", u32, 0⟩]⟩

/-- HC_dialect.xml:1888-1894 -/
def msg20 : XmlMsg := ⟨20, "PARAM_REQUEST_READ",
  [⟨"target_system", u8, 0⟩, ⟨"target_component", u8, 0⟩, ⟨"param_id", char, 16⟩, ⟨"param_index", i16, 0⟩]⟩

/-- HC_dialect.xml:1895-1899 -/
def msg21 : XmlMsg := ⟨21, "PARAM_REQUEST_LIST",
  [⟨"target_system", u8, 0⟩, ⟨"target_component", u8, 0⟩]⟩

/-- HC_dialect.xml:1900-1907 -/
def msg22 : XmlMsg := ⟨22, "PARAM_VALUE",
  [⟨"param_id", char, 16⟩, ⟨"param_value", f32, 0⟩, ⟨"param_type", u8, 0⟩, ⟨"param_count", u16, 0⟩,
    ⟨"param_index", u16, 0⟩]⟩

/-- HC_dialect.xml:1908-1915 -/
def msg23 : XmlMsg := ⟨23, "PARAM_SET",
  [⟨"target_system", u8, 0⟩, ⟨"target_component", u8, 0⟩, ⟨"param_id", char, 16⟩, ⟨"param_value", f32, 0⟩,
    ⟨"param_type", u8, 0⟩]⟩

/-- HC_dialect.xml:1916-1929 -/
def msg24 : XmlMsg := ⟨24, "GPS_RAW_INT",
  [⟨"time_usec", u64, 0⟩, ⟨"fix_type", u8, 0⟩, ⟨"lat", i32, 0⟩, ⟨"lon", i32, 0⟩, ⟨"alt", i32, 0⟩, ⟨"eph", u16, 0⟩,
    ⟨"epv", u16, 0⟩, ⟨"vel", u16, 0⟩, ⟨"cog", u16, 0⟩, ⟨"satellites_visible", u8, 0⟩]⟩

/-- HC_dialect.xml:1930-1938 -/
def msg25 : XmlMsg := ⟨25, "GPS_STATUS",
  [⟨"satellites_visible", u8, 0⟩, ⟨"satellite_prn", u8, 20⟩, ⟨"satellite_used", u8, 20⟩,
    ⟨"satellite_elevation", u8, 20⟩, ⟨"satellite_azimuth", u8, 20⟩, ⟨"satellite_snr", u8, 20⟩]⟩

/-- HC_dialect.xml:1939-1951 -/
def msg26 : XmlMsg := ⟨26, "SCALED_IMU",
  [⟨"time_boot_ms", u32, 0⟩, ⟨"xacc", f32, 0⟩, ⟨"yacc", f32, 0⟩, ⟨"zacc", f32, 0⟩, ⟨"xgyro", f32, 0⟩,
    ⟨"ygyro", f32, 0⟩, ⟨"zgyro", f32, 0⟩, ⟨"xmag", f32, 0⟩, ⟨"ymag", f32, 0⟩, ⟨"zmag", f32, 0⟩]⟩

/-- HC_dialect.xml:1952-1964 -/
def msg27 : XmlMsg := ⟨27, "RAW_IMU",
  [⟨"time_usec", u64, 0⟩, ⟨"xacc", i16, 0⟩, ⟨"yacc", i16, 0⟩, ⟨"zacc", i16, 0⟩, ⟨"xgyro", i16, 0⟩, ⟨"ygyro", i16, 0⟩,
    ⟨"zgyro", i16, 0⟩, ⟨"xmag", i16, 0⟩, ⟨"ymag", i16, 0⟩, ⟨"zmag", i16, 0⟩]⟩

/-- HC_dialect.xml:1965-1972 -/
def msg28 : XmlMsg := ⟨28, "RAW_PRESSURE",
  [⟨"time_usec", u64, 0⟩, ⟨"press_abs", i16, 0⟩, ⟨"press_diff1", i16, 0⟩, ⟨"press_diff2", i16, 0⟩,
    ⟨"temperature", i16, 0⟩]⟩

/-- HC_dialect.xml:1973-1979 -/
def msg29 : XmlMsg := ⟨29, "SCALED_PRESSURE",
  [⟨"time_boot_ms", u32, 0⟩, ⟨"press_abs", f32, 0⟩, ⟨"press_diff", f32, 0⟩, ⟨"temperature", f32, 0⟩]⟩

/-- HC_dialect.xml:1980-1989 -/
def msg30 : XmlMsg := ⟨30, "ATTITUDE",
  [⟨"time_boot_ms", u32, 0⟩, ⟨"roll", f32, 0⟩, ⟨"pitch", f32, 0⟩, ⟨"yaw", f32, 0⟩, ⟨"rollspeed", f32, 0⟩,
    ⟨"pitchspeed", f32, 0⟩, ⟨"yawspeed", f32, 0⟩]⟩

/-- HC_dialect.xml:1990-2000 -/
def msg31 : XmlMsg := ⟨31, "ATTITUDE_QUATERNION",
  [⟨"time_boot_ms", u32, 0⟩, ⟨"q1", f32, 0⟩, ⟨"q2", f32, 0⟩, ⟨"q3", f32, 0⟩, ⟨"q4", f32, 0⟩, ⟨"rollspeed", f32, 0⟩,
    ⟨"pitchspeed", f32, 0⟩, ⟨"yawspeed", f32, 0⟩]⟩

/-- HC_dialect.xml:2001-2010 -/
def msg32 : XmlMsg := ⟨32, "LOCAL_POSITION_NED",
  [⟨"time_boot_ms", u32, 0⟩, ⟨"x", f32, 0⟩, ⟨"y", f32, 0⟩, ⟨"z", f32, 0⟩, ⟨"vx", f32, 0⟩, ⟨"vy", f32, 0⟩,
    ⟨"vz", f32, 0⟩]⟩

/-- HC_dialect.xml:2011-2025 -/
def msg33 : XmlMsg := ⟨33, "GLOBAL_POSITION_INT",
  [⟨"time_boot_ms", u32, 0⟩, ⟨"lat", i32, 0⟩, ⟨"lon", i32, 0⟩, ⟨"alt", f32, 0⟩, ⟨"relative_alt", f32, 0⟩,
    ⟨"bottom_clearnce", f32, 0⟩, ⟨"depth", f32, 0⟩, ⟨"vx", f32, 0⟩, ⟨"vy", f32, 0⟩, ⟨"vz", f32, 0⟩, ⟨"hdg", f32, 0⟩]⟩

/-- HC_dialect.xml:2026-2039 -/
def msg34 : XmlMsg := ⟨34, "RC_CHANNELS_SCALED",
  [⟨"time_boot_ms", u32, 0⟩, ⟨"port", u8, 0⟩, ⟨"chan1_scaled", i16, 0⟩, ⟨"chan2_scaled", i16, 0⟩,
    ⟨"chan3_scaled", i16, 0⟩, ⟨"chan4_scaled", i16, 0⟩, ⟨"chan5_scaled", i16, 0⟩, ⟨"chan6_scaled", i16, 0⟩,
    ⟨"chan7_scaled", i16, 0⟩, ⟨"chan8_scaled", i16, 0⟩, ⟨"rssi", u8, 0⟩]⟩

/-- HC_dialect.xml:2040-2053 -/
def msg35 : XmlMsg := ⟨35, "RC_CHANNELS_RAW",
  [⟨"time_boot_ms", u32, 0⟩, ⟨"port", u8, 0⟩, ⟨"chan1_raw", u16, 0⟩, ⟨"chan2_raw", u16, 0⟩, ⟨"chan3_raw", u16, 0⟩,
    ⟨"chan4_raw", u16, 0⟩, ⟨"chan5_raw", u16, 0⟩, ⟨"chan6_raw", u16, 0⟩, ⟨"chan7_raw", u16, 0⟩, ⟨"chan8_raw", u16, 0⟩,
    ⟨"rssi", u8, 0⟩]⟩

/-- HC_dialect.xml:2054-2066 -/
def msg36 : XmlMsg := ⟨36, "SERVO_OUTPUT_RAW",
  [⟨"time_usec", u32, 0⟩, ⟨"port", u8, 0⟩, ⟨"servo1_raw", u16, 0⟩, ⟨"servo2_raw", u16, 0⟩, ⟨"servo3_raw", u16, 0⟩,
    ⟨"servo4_raw", u16, 0⟩, ⟨"servo5_raw", u16, 0⟩, ⟨"servo6_raw", u16, 0⟩, ⟨"servo7_raw", u16, 0⟩,
    ⟨"servo8_raw", u16, 0⟩]⟩

/-- HC_dialect.xml:2067-2073 -/
def msg37 : XmlMsg := ⟨37, "MISSION_REQUEST_PARTIAL_LIST",
  [⟨"target_system", u8, 0⟩, ⟨"target_component", u8, 0⟩, ⟨"start_index", i16, 0⟩, ⟨"end_index", i16, 0⟩]⟩

/-- HC_dialect.xml:2074-2080 -/
def msg38 : XmlMsg := ⟨38, "MISSION_WRITE_PARTIAL_LIST",
  [⟨"target_system", u8, 0⟩, ⟨"target_component", u8, 0⟩, ⟨"start_index", i16, 0⟩, ⟨"end_index", i16, 0⟩]⟩

/-- HC_dialect.xml:2081-2098 -/
def msg39 : XmlMsg := ⟨39, "MISSION_ITEM",
  [⟨"target_system", u8, 0⟩, ⟨"target_component", u8, 0⟩, ⟨"seq", u16, 0⟩, ⟨"frame", u8, 0⟩, ⟨"command", u16, 0⟩,
    ⟨"current", u8, 0⟩, ⟨"autocontinue", u8, 0⟩, ⟨"param1", f32, 0⟩, ⟨"param2", f32, 0⟩, ⟨"param3", f32, 0⟩,
    ⟨"param4", f32, 0⟩, ⟨"x", f32, 0⟩, ⟨"y", f32, 0⟩, ⟨"z", f32, 0⟩]⟩

/-- HC_dialect.xml:2099-2104 -/
def msg40 : XmlMsg := ⟨40, "MISSION_REQUEST",
  [⟨"target_system", u8, 0⟩, ⟨"target_component", u8, 0⟩, ⟨"seq", u16, 0⟩]⟩

/-- HC_dialect.xml:2105-2110 -/
def msg41 : XmlMsg := ⟨41, "MISSION_SET_CURRENT",
  [⟨"target_system", u8, 0⟩, ⟨"target_component", u8, 0⟩, ⟨"seq", u16, 0⟩]⟩

/-- HC_dialect.xml:2111-2114 -/
def msg42 : XmlMsg := ⟨42, "MISSION_CURRENT",
  [⟨"seq", u16, 0⟩]⟩

/-- HC_dialect.xml:2115-2119 -/
def msg43 : XmlMsg := ⟨43, "MISSION_REQUEST_LIST",
  [⟨"target_system", u8, 0⟩, ⟨"target_component", u8, 0⟩]⟩

/-- HC_dialect.xml:2120-2125 -/
def msg44 : XmlMsg := ⟨44, "MISSION_COUNT",
  [⟨"target_system", u8, 0⟩, ⟨"target_component", u8, 0⟩, ⟨"count", u16, 0⟩]⟩

/-- HC_dialect.xml:2126-2130 -/
def msg45 : XmlMsg := ⟨45, "MISSION_CLEAR_ALL",
  [⟨"target_system", u8, 0⟩, ⟨"target_component", u8, 0⟩]⟩

/-- HC_dialect.xml:2131-2134 -/
def msg46 : XmlMsg := ⟨46, "MISSION_ITEM_REACHED",
  [⟨"seq", u16, 0⟩]⟩

/-- HC_dialect.xml:2135-2140 -/
def msg47 : XmlMsg := ⟨47, "MISSION_ACK",
  [⟨"target_system", u8, 0⟩, ⟨"target_component", u8, 0⟩, ⟨"type", u8, 0⟩]⟩

/-- HC_dialect.xml:2141-2147 -/
def msg48 : XmlMsg := ⟨48, "SET_GPS_GLOBAL_ORIGIN",
  [⟨"target_system", u8, 0⟩, ⟨"latitude", i32, 0⟩, ⟨"longitude", i32, 0⟩, ⟨"altitude", i32, 0⟩]⟩

/-- HC_dialect.xml:2148-2153 -/
def msg49 : XmlMsg := ⟨49, "GPS_GLOBAL_ORIGIN",
  [⟨"latitude", i32, 0⟩, ⟨"longitude", i32, 0⟩, ⟨"altitude", i32, 0⟩]⟩

/-- HC_dialect.xml:2154-2165 -/
def msg50 : XmlMsg := ⟨50, "PARAM_MAP_RC",
  [⟨"target_system", u8, 0⟩, ⟨"target_component", u8, 0⟩, ⟨"param_id", char, 16⟩, ⟨"param_index", i16, 0⟩,
    ⟨"parameter_rc_channel_index", u8, 0⟩, ⟨"param_value0", f32, 0⟩, ⟨"scale", f32, 0⟩, ⟨"param_value_min", f32, 0⟩,
    ⟨"param_value_max", f32, 0⟩]⟩

/-- HC_dialect.xml:2166-2177 -/
def msg54 : XmlMsg := ⟨54, "SAFETY_SET_ALLOWED_AREA",
  [⟨"target_system", u8, 0⟩, ⟨"target_component", u8, 0⟩, ⟨"frame", u8, 0⟩, ⟨"p1x", f32, 0⟩, ⟨"p1y", f32, 0⟩,
    ⟨"p1z", f32, 0⟩, ⟨"p2x", f32, 0⟩, ⟨"p2y", f32, 0⟩, ⟨"p2z", f32, 0⟩]⟩

/-- HC_dialect.xml:2178-2187 -/
def msg55 : XmlMsg := ⟨55, "SAFETY_ALLOWED_AREA",
  [⟨"frame", u8, 0⟩, ⟨"p1x", f32, 0⟩, ⟨"p1y", f32, 0⟩, ⟨"p1z", f32, 0⟩, ⟨"p2x", f32, 0⟩, ⟨"p2y", f32, 0⟩,
    ⟨"p2z", f32, 0⟩]⟩

/-- HC_dialect.xml:2188-2196 -/
def msg61 : XmlMsg := ⟨61, "ATTITUDE_QUATERNION_COV",
  [⟨"time_boot_ms", u32, 0⟩, ⟨"q", f32, 4⟩, ⟨"rollspeed", f32, 0⟩, ⟨"pitchspeed", f32, 0⟩, ⟨"yawspeed", f32, 0⟩,
    ⟨"covariance", f32, 9⟩]⟩

/-- HC_dialect.xml:2197-2207 -/
def msg62 : XmlMsg := ⟨62, "NAV_CONTROLLER_OUTPUT",
  [⟨"nav_roll", f32, 0⟩, ⟨"nav_pitch", f32, 0⟩, ⟨"nav_bearing", i16, 0⟩, ⟨"target_bearing", i16, 0⟩,
    ⟨"wp_dist", u16, 0⟩, ⟨"alt_error", f32, 0⟩, ⟨"aspd_error", f32, 0⟩, ⟨"xtrack_error", f32, 0⟩]⟩

/-- HC_dialect.xml:2208-2221 -/
def msg63 : XmlMsg := ⟨63, "GLOBAL_POSITION_INT_COV",
  [⟨"time_boot_ms", u32, 0⟩, ⟨"time_utc", u64, 0⟩, ⟨"estimator_type", u8, 0⟩, ⟨"lat", i32, 0⟩, ⟨"lon", i32, 0⟩,
    ⟨"alt", i32, 0⟩, ⟨"relative_alt", i32, 0⟩, ⟨"vx", f32, 0⟩, ⟨"vy", f32, 0⟩, ⟨"vz", f32, 0⟩, ⟨"covariance", f32, 36⟩]⟩

/-- HC_dialect.xml:2222-2237 -/
def msg64 : XmlMsg := ⟨64, "LOCAL_POSITION_NED_COV",
  [⟨"time_boot_ms", u32, 0⟩, ⟨"time_utc", u64, 0⟩, ⟨"estimator_type", u8, 0⟩, ⟨"x", f32, 0⟩, ⟨"y", f32, 0⟩,
    ⟨"z", f32, 0⟩, ⟨"vx", f32, 0⟩, ⟨"vy", f32, 0⟩, ⟨"vz", f32, 0⟩, ⟨"ax", f32, 0⟩, ⟨"ay", f32, 0⟩, ⟨"az", f32, 0⟩,
    ⟨"covariance", f32, 45⟩]⟩

/-- HC_dialect.xml:2238-2261 -/
def msg65 : XmlMsg := ⟨65, "RC_CHANNELS",
  [⟨"time_boot_ms", u32, 0⟩, ⟨"chancount", u8, 0⟩, ⟨"chan1_raw", u16, 0⟩, ⟨"chan2_raw", u16, 0⟩,
    ⟨"chan3_raw", u16, 0⟩, ⟨"chan4_raw", u16, 0⟩, ⟨"chan5_raw", u16, 0⟩, ⟨"chan6_raw", u16, 0⟩, ⟨"chan7_raw", u16, 0⟩,
    ⟨"chan8_raw", u16, 0⟩, ⟨"chan9_raw", u16, 0⟩, ⟨"chan10_raw", u16, 0⟩, ⟨"chan11_raw", u16, 0⟩,
    ⟨"chan12_raw", u16, 0⟩, ⟨"chan13_raw", u16, 0⟩, ⟨"chan14_raw", u16, 0⟩, ⟨"chan15_raw", u16, 0⟩,
    ⟨"chan16_raw", u16, 0⟩, ⟨"chan17_raw", u16, 0⟩, ⟨"chan18_raw", u16, 0⟩, ⟨"rssi", u8, 0⟩]⟩

/-- HC_dialect.xml:2262-2269 -/
def msg66 : XmlMsg := ⟨66, "REQUEST_DATA_STREAM",
  [⟨"target_system", u8, 0⟩, ⟨"target_component", u8, 0⟩, ⟨"req_stream_id", u8, 0⟩, ⟨"req_message_rate", u16, 0⟩,
    ⟨"start_stop", u8, 0⟩]⟩

/-- HC_dialect.xml:2270-2275 -/
def msg67 : XmlMsg := ⟨67, "DATA_STREAM",
  [⟨"stream_id", u8, 0⟩, ⟨"message_rate", u16, 0⟩, ⟨"on_off", u8, 0⟩]⟩

/-- HC_dialect.xml:2276-2284 -/
def msg69 : XmlMsg := ⟨69, "MANUAL_CONTROL",
  [⟨"target", u8, 0⟩, ⟨"x", i16, 0⟩, ⟨"y", i16, 0⟩, ⟨"z", i16, 0⟩, ⟨"r", i16, 0⟩, ⟨"buttons", u16, 0⟩]⟩

/-- HC_dialect.xml:2285-2297 -/
def msg70 : XmlMsg := ⟨70, "RC_CHANNELS_OVERRIDE",
  [⟨"target_system", u8, 0⟩, ⟨"target_component", u8, 0⟩, ⟨"chan1_raw", u16, 0⟩, ⟨"chan2_raw", u16, 0⟩,
    ⟨"chan3_raw", u16, 0⟩, ⟨"chan4_raw", u16, 0⟩, ⟨"chan5_raw", u16, 0⟩, ⟨"chan6_raw", u16, 0⟩, ⟨"chan7_raw", u16, 0⟩,
    ⟨"chan8_raw", u16, 0⟩]⟩

/-- HC_dialect.xml:2298-2315 -/
def msg73 : XmlMsg := ⟨73, "MISSION_ITEM_INT",
  [⟨"target_system", u8, 0⟩, ⟨"target_component", u8, 0⟩, ⟨"seq", u16, 0⟩, ⟨"frame", u8, 0⟩, ⟨"command", u16, 0⟩,
    ⟨"current", u8, 0⟩, ⟨"autocontinue", u8, 0⟩, ⟨"param1", f32, 0⟩, ⟨"param2", f32, 0⟩, ⟨"param3", f32, 0⟩,
    ⟨"param4", f32, 0⟩, ⟨"x", i32, 0⟩, ⟨"y", i32, 0⟩, ⟨"z", f32, 0⟩]⟩

/-- HC_dialect.xml:2316-2324 -/
def msg74 : XmlMsg := ⟨74, "VFR_HUD",
  [⟨"airspeed", f32, 0⟩, ⟨"groundspeed", f32, 0⟩, ⟨"heading", i16, 0⟩, ⟨"throttle", u16, 0⟩, ⟨"alt", f32, 0⟩,
    ⟨"climb", f32, 0⟩]⟩

/-- HC_dialect.xml:2325-2340 -/
def msg75 : XmlMsg := ⟨75, "COMMAND_INT",
  [⟨"target_system", u8, 0⟩, ⟨"target_component", u8, 0⟩, ⟨"frame", u8, 0⟩, ⟨"command", u16, 0⟩, ⟨"current", u8, 0⟩,
    ⟨"autocontinue", u8, 0⟩, ⟨"param1", f32, 0⟩, ⟨"param2", f32, 0⟩, ⟨"param3", f32, 0⟩, ⟨"param4", f32, 0⟩,
    ⟨"x", i32, 0⟩, ⟨"y", i32, 0⟩, ⟨"z", f32, 0⟩]⟩

/-- HC_dialect.xml:2341-2354 -/
def msg76 : XmlMsg := ⟨76, "COMMAND_LONG",
  [⟨"target_system", u8, 0⟩, ⟨"target_component", u8, 0⟩, ⟨"command", u16, 0⟩, ⟨"confirmation", u8, 0⟩,
    ⟨"param1", f32, 0⟩, ⟨"param2", f32, 0⟩, ⟨"param3", f32, 0⟩, ⟨"param4", f32, 0⟩, ⟨"param5", f32, 0⟩,
    ⟨"param6", f32, 0⟩, ⟨"param7", f32, 0⟩]⟩

/-- HC_dialect.xml:2355-2359 -/
def msg77 : XmlMsg := ⟨77, "COMMAND_ACK",
  [⟨"command", u16, 0⟩, ⟨"result", u8, 0⟩]⟩

/-- HC_dialect.xml:2360-2369 -/
def msg81 : XmlMsg := ⟨81, "MANUAL_SETPOINT",
  [⟨"time_boot_ms", u32, 0⟩, ⟨"roll", f32, 0⟩, ⟨"pitch", f32, 0⟩, ⟨"yaw", f32, 0⟩, ⟨"thrust", f32, 0⟩,
    ⟨"mode_switch", u8, 0⟩, ⟨"manual_override_switch", u8, 0⟩]⟩

/-- HC_dialect.xml:2370-2381 -/
def msg82 : XmlMsg := ⟨82, "SET_ATTITUDE_TARGET",
  [⟨"time_boot_ms", u32, 0⟩, ⟨"target_system", u8, 0⟩, ⟨"target_component", u8, 0⟩, ⟨"type_mask", u8, 0⟩,
    ⟨"q", f32, 4⟩, ⟨"body_roll_rate", f32, 0⟩, ⟨"body_pitch_rate", f32, 0⟩, ⟨"body_yaw_rate", f32, 0⟩,
    ⟨"thrust", f32, 0⟩]⟩

/-- HC_dialect.xml:2382-2391 -/
def msg83 : XmlMsg := ⟨83, "ATTITUDE_TARGET",
  [⟨"time_boot_ms", u32, 0⟩, ⟨"type_mask", u8, 0⟩, ⟨"q", f32, 4⟩, ⟨"body_roll_rate", f32, 0⟩,
    ⟨"body_pitch_rate", f32, 0⟩, ⟨"body_yaw_rate", f32, 0⟩, ⟨"thrust", f32, 0⟩]⟩

/-- HC_dialect.xml:2392-2410 -/
def msg84 : XmlMsg := ⟨84, "SET_POSITION_TARGET_LOCAL_NED",
  [⟨"time_boot_ms", u32, 0⟩, ⟨"target_system", u8, 0⟩, ⟨"target_component", u8, 0⟩, ⟨"coordinate_frame", u8, 0⟩,
    ⟨"type_mask", u16, 0⟩, ⟨"x", f32, 0⟩, ⟨"y", f32, 0⟩, ⟨"z", f32, 0⟩, ⟨"vx", f32, 0⟩, ⟨"vy", f32, 0⟩,
    ⟨"vz", f32, 0⟩, ⟨"afx", f32, 0⟩, ⟨"afy", f32, 0⟩, ⟨"afz", f32, 0⟩, ⟨"yaw", f32, 0⟩, ⟨"yaw_rate", f32, 0⟩]⟩

/-- HC_dialect.xml:2411-2427 -/
def msg85 : XmlMsg := ⟨85, "POSITION_TARGET_LOCAL_NED",
  [⟨"time_boot_ms", u32, 0⟩, ⟨"coordinate_frame", u8, 0⟩, ⟨"type_mask", u16, 0⟩, ⟨"x", f32, 0⟩, ⟨"y", f32, 0⟩,
    ⟨"z", f32, 0⟩, ⟨"vx", f32, 0⟩, ⟨"vy", f32, 0⟩, ⟨"vz", f32, 0⟩, ⟨"afx", f32, 0⟩, ⟨"afy", f32, 0⟩, ⟨"afz", f32, 0⟩,
    ⟨"yaw", f32, 0⟩, ⟨"yaw_rate", f32, 0⟩]⟩

/-- HC_dialect.xml:2428-2446 -/
def msg86 : XmlMsg := ⟨86, "SET_POSITION_TARGET_GLOBAL_INT",
  [⟨"time_boot_ms", u32, 0⟩, ⟨"target_system", u8, 0⟩, ⟨"target_component", u8, 0⟩, ⟨"coordinate_frame", u8, 0⟩,
    ⟨"type_mask", u16, 0⟩, ⟨"lat_int", i32, 0⟩, ⟨"lon_int", i32, 0⟩, ⟨"alt", f32, 0⟩, ⟨"vx", f32, 0⟩, ⟨"vy", f32, 0⟩,
    ⟨"vz", f32, 0⟩, ⟨"afx", f32, 0⟩, ⟨"afy", f32, 0⟩, ⟨"afz", f32, 0⟩, ⟨"yaw", f32, 0⟩, ⟨"yaw_rate", f32, 0⟩]⟩

/-- HC_dialect.xml:2447-2463 -/
def msg87 : XmlMsg := ⟨87, "POSITION_TARGET_GLOBAL_INT",
  [⟨"time_boot_ms", u32, 0⟩, ⟨"coordinate_frame", u8, 0⟩, ⟨"type_mask", u16, 0⟩, ⟨"lat_int", i32, 0⟩,
    ⟨"lon_int", i32, 0⟩, ⟨"alt", f32, 0⟩, ⟨"vx", f32, 0⟩, ⟨"vy", f32, 0⟩, ⟨"vz", f32, 0⟩, ⟨"afx", f32, 0⟩,
    ⟨"afy", f32, 0⟩, ⟨"afz", f32, 0⟩, ⟨"yaw", f32, 0⟩, ⟨"yaw_rate", f32, 0⟩]⟩

/-- HC_dialect.xml:2464-2473 -/
def msg89 : XmlMsg := ⟨89, "LOCAL_POSITION_NED_SYSTEM_GLOBAL_OFFSET",
  [⟨"time_boot_ms", u32, 0⟩, ⟨"x", f32, 0⟩, ⟨"y", f32, 0⟩, ⟨"z", f32, 0⟩, ⟨"roll", f32, 0⟩, ⟨"pitch", f32, 0⟩,
    ⟨"yaw", f32, 0⟩]⟩

/-- HC_dialect.xml:2474-2492 -/
def msg90 : XmlMsg := ⟨90, "HIL_STATE",
  [⟨"time_usec", u64, 0⟩, ⟨"roll", f32, 0⟩, ⟨"pitch", f32, 0⟩, ⟨"yaw", f32, 0⟩, ⟨"rollspeed", f32, 0⟩,
    ⟨"pitchspeed", f32, 0⟩, ⟨"yawspeed", f32, 0⟩, ⟨"lat", i32, 0⟩, ⟨"lon", i32, 0⟩, ⟨"alt", i32, 0⟩, ⟨"vx", i16, 0⟩,
    ⟨"vy", i16, 0⟩, ⟨"vz", i16, 0⟩, ⟨"xacc", i16, 0⟩, ⟨"yacc", i16, 0⟩, ⟨"zacc", i16, 0⟩]⟩

/-- HC_dialect.xml:2493-2506 -/
def msg91 : XmlMsg := ⟨91, "HIL_CONTROLS",
  [⟨"time_usec", u64, 0⟩, ⟨"roll_ailerons", f32, 0⟩, ⟨"pitch_elevator", f32, 0⟩, ⟨"yaw_rudder", f32, 0⟩,
    ⟨"throttle", f32, 0⟩, ⟨"aux1", f32, 0⟩, ⟨"aux2", f32, 0⟩, ⟨"aux3", f32, 0⟩, ⟨"aux4", f32, 0⟩, ⟨"mode", u8, 0⟩,
    ⟨"nav_mode", u8, 0⟩]⟩

/-- HC_dialect.xml:2507-2523 -/
def msg92 : XmlMsg := ⟨92, "HIL_RC_INPUTS_RAW",
  [⟨"time_usec", u64, 0⟩, ⟨"chan1_raw", u16, 0⟩, ⟨"chan2_raw", u16, 0⟩, ⟨"chan3_raw", u16, 0⟩, ⟨"chan4_raw", u16, 0⟩,
    ⟨"chan5_raw", u16, 0⟩, ⟨"chan6_raw", u16, 0⟩, ⟨"chan7_raw", u16, 0⟩, ⟨"chan8_raw", u16, 0⟩, ⟨"chan9_raw", u16, 0⟩,
    ⟨"chan10_raw", u16, 0⟩, ⟨"chan11_raw", u16, 0⟩, ⟨"chan12_raw", u16, 0⟩, ⟨"rssi", u8, 0⟩]⟩

/-- HC_dialect.xml:2524-2534 -/
def msg100 : XmlMsg := ⟨100, "OPTICAL_FLOW",
  [⟨"time_usec", u64, 0⟩, ⟨"sensor_id", u8, 0⟩, ⟨"flow_x", i16, 0⟩, ⟨"flow_y", i16, 0⟩, ⟨"flow_comp_m_x", f32, 0⟩,
    ⟨"flow_comp_m_y", f32, 0⟩, ⟨"quality", u8, 0⟩, ⟨"ground_distance", f32, 0⟩]⟩

/-- HC_dialect.xml:2535-2544 -/
def msg101 : XmlMsg := ⟨101, "GLOBAL_VISION_POSITION_ESTIMATE",
  [⟨"usec", u64, 0⟩, ⟨"x", f32, 0⟩, ⟨"y", f32, 0⟩, ⟨"z", f32, 0⟩, ⟨"roll", f32, 0⟩, ⟨"pitch", f32, 0⟩, ⟨"yaw", f32, 0⟩]⟩

/-- HC_dialect.xml:2545-2554 -/
def msg102 : XmlMsg := ⟨102, "VISION_POSITION_ESTIMATE",
  [⟨"usec", u64, 0⟩, ⟨"x", f32, 0⟩, ⟨"y", f32, 0⟩, ⟨"z", f32, 0⟩, ⟨"roll", f32, 0⟩, ⟨"pitch", f32, 0⟩, ⟨"yaw", f32, 0⟩]⟩

/-- HC_dialect.xml:2555-2561 -/
def msg103 : XmlMsg := ⟨103, "VISION_SPEED_ESTIMATE",
  [⟨"usec", u64, 0⟩, ⟨"x", f32, 0⟩, ⟨"y", f32, 0⟩, ⟨"z", f32, 0⟩]⟩

/-- HC_dialect.xml:2562-2571 -/
def msg104 : XmlMsg := ⟨104, "VICON_POSITION_ESTIMATE",
  [⟨"usec", u64, 0⟩, ⟨"x", f32, 0⟩, ⟨"y", f32, 0⟩, ⟨"z", f32, 0⟩, ⟨"roll", f32, 0⟩, ⟨"pitch", f32, 0⟩, ⟨"yaw", f32, 0⟩]⟩

/-- HC_dialect.xml:2572-2589 -/
def msg105 : XmlMsg := ⟨105, "HIGHRES_IMU",
  [⟨"time_usec", u64, 0⟩, ⟨"xacc", f32, 0⟩, ⟨"yacc", f32, 0⟩, ⟨"zacc", f32, 0⟩, ⟨"xgyro", f32, 0⟩, ⟨"ygyro", f32, 0⟩,
    ⟨"zgyro", f32, 0⟩, ⟨"xmag", f32, 0⟩, ⟨"ymag", f32, 0⟩, ⟨"zmag", f32, 0⟩, ⟨"abs_pressure", f32, 0⟩,
    ⟨"diff_pressure", f32, 0⟩, ⟨"pressure_alt", f32, 0⟩, ⟨"temperature", f32, 0⟩, ⟨"fields_updated", u16, 0⟩]⟩

/-- HC_dialect.xml:2590-2604 -/
def msg106 : XmlMsg := ⟨106, "OPTICAL_FLOW_RAD",
  [⟨"time_usec", u64, 0⟩, ⟨"sensor_id", u8, 0⟩, ⟨"integration_time_us", u32, 0⟩, ⟨"integrated_x", f32, 0⟩,
    ⟨"integrated_y", f32, 0⟩, ⟨"integrated_xgyro", f32, 0⟩, ⟨"integrated_ygyro", f32, 0⟩,
    ⟨"integrated_zgyro", f32, 0⟩, ⟨"temperature", i16, 0⟩, ⟨"quality", u8, 0⟩, ⟨"time_delta_distance_us", u32, 0⟩,
    ⟨"distance", f32, 0⟩]⟩

/-- HC_dialect.xml:2606-2622 -/
def msg107 : XmlMsg := ⟨107, "HIL_SENSOR",
  [⟨"time_usec", u64, 0⟩, ⟨"xacc", f32, 0⟩, ⟨"yacc", f32, 0⟩, ⟨"zacc", f32, 0⟩, ⟨"xgyro", f32, 0⟩, ⟨"ygyro", f32, 0⟩,
    ⟨"zgyro", f32, 0⟩, ⟨"xmag", f32, 0⟩, ⟨"ymag", f32, 0⟩, ⟨"zmag", f32, 0⟩, ⟨"abs_pressure", f32, 0⟩,
    ⟨"diff_pressure", f32, 0⟩, ⟨"pressure_alt", f32, 0⟩, ⟨"temperature", f32, 0⟩, ⟨"fields_updated", u32, 0⟩]⟩

/-- HC_dialect.xml:2624-2647 -/
def msg108 : XmlMsg := ⟨108, "SIM_STATE",
  [⟨"q1", f32, 0⟩, ⟨"q2", f32, 0⟩, ⟨"q3", f32, 0⟩, ⟨"q4", f32, 0⟩, ⟨"roll", f32, 0⟩, ⟨"pitch", f32, 0⟩,
    ⟨"yaw", f32, 0⟩, ⟨"xacc", f32, 0⟩, ⟨"yacc", f32, 0⟩, ⟨"zacc", f32, 0⟩, ⟨"xgyro", f32, 0⟩, ⟨"ygyro", f32, 0⟩,
    ⟨"zgyro", f32, 0⟩, ⟨"lat", f32, 0⟩, ⟨"lon", f32, 0⟩, ⟨"alt", f32, 0⟩, ⟨"std_dev_horz", f32, 0⟩,
    ⟨"std_dev_vert", f32, 0⟩, ⟨"vn", f32, 0⟩, ⟨"ve", f32, 0⟩, ⟨"vd", f32, 0⟩]⟩

/-- HC_dialect.xml:2649-2658 -/
def msg109 : XmlMsg := ⟨109, "RADIO_STATUS",
  [⟨"rssi", u8, 0⟩, ⟨"remrssi", u8, 0⟩, ⟨"txbuf", u8, 0⟩, ⟨"noise", u8, 0⟩, ⟨"remnoise", u8, 0⟩, ⟨"rxerrors", u16, 0⟩,
    ⟨"fixed", u16, 0⟩]⟩

/-- HC_dialect.xml:2659-2665 -/
def msg110 : XmlMsg := ⟨110, "FILE_TRANSFER_PROTOCOL",
  [⟨"target_network", u8, 0⟩, ⟨"target_system", u8, 0⟩, ⟨"target_component", u8, 0⟩, ⟨"payload", u8, 251⟩]⟩

/-- HC_dialect.xml:2666-2670 -/
def msg111 : XmlMsg := ⟨111, "TIMESYNC",
  [⟨"tc1", i64, 0⟩, ⟨"ts1", i64, 0⟩]⟩

/-- HC_dialect.xml:2671-2675 -/
def msg112 : XmlMsg := ⟨112, "CAMERA_TRIGGER",
  [⟨"time_usec", u64, 0⟩, ⟨"seq", u32, 0⟩]⟩

/-- HC_dialect.xml:2676-2692 -/
def msg113 : XmlMsg := ⟨113, "HIL_GPS",
  [⟨"time_usec", u64, 0⟩, ⟨"fix_type", u8, 0⟩, ⟨"lat", i32, 0⟩, ⟨"lon", i32, 0⟩, ⟨"alt", i32, 0⟩, ⟨"eph", u16, 0⟩,
    ⟨"epv", u16, 0⟩, ⟨"vel", u16, 0⟩, ⟨"vn", i16, 0⟩, ⟨"ve", i16, 0⟩, ⟨"vd", i16, 0⟩, ⟨"cog", u16, 0⟩,
    ⟨"satellites_visible", u8, 0⟩]⟩

/-- HC_dialect.xml:2693-2707 -/
def msg114 : XmlMsg := ⟨114, "HIL_OPTICAL_FLOW",
  [⟨"time_usec", u64, 0⟩, ⟨"sensor_id", u8, 0⟩, ⟨"integration_time_us", u32, 0⟩, ⟨"integrated_x", f32, 0⟩,
    ⟨"integrated_y", f32, 0⟩, ⟨"integrated_xgyro", f32, 0⟩, ⟨"integrated_ygyro", f32, 0⟩,
    ⟨"integrated_zgyro", f32, 0⟩, ⟨"temperature", i16, 0⟩, ⟨"quality", u8, 0⟩, ⟨"time_delta_distance_us", u32, 0⟩,
    ⟨"distance", f32, 0⟩]⟩

/-- HC_dialect.xml:2708-2726 -/
def msg115 : XmlMsg := ⟨115, "HIL_STATE_QUATERNION",
  [⟨"time_usec", u64, 0⟩, ⟨"attitude_quaternion", f32, 4⟩, ⟨"rollspeed", f32, 0⟩, ⟨"pitchspeed", f32, 0⟩,
    ⟨"yawspeed", f32, 0⟩, ⟨"lat", i32, 0⟩, ⟨"lon", i32, 0⟩, ⟨"alt", i32, 0⟩, ⟨"vx", i16, 0⟩, ⟨"vy", i16, 0⟩,
    ⟨"vz", i16, 0⟩, ⟨"ind_airspeed", u16, 0⟩, ⟨"true_airspeed", u16, 0⟩, ⟨"xacc", i16, 0⟩, ⟨"yacc", i16, 0⟩,
    ⟨"zacc", i16, 0⟩]⟩

/-- HC_dialect.xml:2727-2739 -/
def msg116 : XmlMsg := ⟨116, "SCALED_IMU2",
  [⟨"time_boot_ms", u32, 0⟩, ⟨"xacc", f32, 0⟩, ⟨"yacc", f32, 0⟩, ⟨"zacc", f32, 0⟩, ⟨"xgyro", f32, 0⟩,
    ⟨"ygyro", f32, 0⟩, ⟨"zgyro", f32, 0⟩, ⟨"xmag", f32, 0⟩, ⟨"ymag", f32, 0⟩, ⟨"zmag", f32, 0⟩]⟩

/-- HC_dialect.xml:2740-2746 -/
def msg117 : XmlMsg := ⟨117, "LOG_REQUEST_LIST",
  [⟨"target_system", u8, 0⟩, ⟨"target_component", u8, 0⟩, ⟨"start", u16, 0⟩, ⟨"end", u16, 0⟩]⟩

/-- HC_dialect.xml:2747-2754 -/
def msg118 : XmlMsg := ⟨118, "LOG_ENTRY",
  [⟨"id", u16, 0⟩, ⟨"num_logs", u16, 0⟩, ⟨"last_log_num", u16, 0⟩, ⟨"time_utc", u32, 0⟩, ⟨"size", u32, 0⟩]⟩

/-- HC_dialect.xml:2755-2762 -/
def msg119 : XmlMsg := ⟨119, "LOG_REQUEST_DATA",
  [⟨"target_system", u8, 0⟩, ⟨"target_component", u8, 0⟩, ⟨"id", u16, 0⟩, ⟨"ofs", u32, 0⟩, ⟨"count", u32, 0⟩]⟩

/-- HC_dialect.xml:2763-2769 -/
def msg120 : XmlMsg := ⟨120, "LOG_DATA",
  [⟨"id", u16, 0⟩, ⟨"ofs", u32, 0⟩, ⟨"count", u8, 0⟩, ⟨"data", u8, 90⟩]⟩

/-- HC_dialect.xml:2770-2774 -/
def msg121 : XmlMsg := ⟨121, "LOG_ERASE",
  [⟨"target_system", u8, 0⟩, ⟨"target_component", u8, 0⟩]⟩

/-- HC_dialect.xml:2775-2779 -/
def msg122 : XmlMsg := ⟨122, "LOG_REQUEST_END",
  [⟨"target_system", u8, 0⟩, ⟨"target_component", u8, 0⟩]⟩

/-- HC_dialect.xml:2780-2786 -/
def msg123 : XmlMsg := ⟨123, "GPS_INJECT_DATA",
  [⟨"target_system", u8, 0⟩, ⟨"target_component", u8, 0⟩, ⟨"len", u8, 0⟩, ⟨"data", u8, 110⟩]⟩

/-- HC_dialect.xml:2787-2801 -/
def msg124 : XmlMsg := ⟨124, "GPS2_RAW",
  [⟨"time_usec", u64, 0⟩, ⟨"fix_type", u8, 0⟩, ⟨"lat", i32, 0⟩, ⟨"lon", i32, 0⟩, ⟨"alt", i32, 0⟩, ⟨"eph", u16, 0⟩,
    ⟨"epv", u16, 0⟩, ⟨"vel", u16, 0⟩, ⟨"cog", u16, 0⟩, ⟨"satellites_visible", u8, 0⟩, ⟨"dgps_numch", u8, 0⟩,
    ⟨"dgps_age", u32, 0⟩]⟩

/-- HC_dialect.xml:2802-2807 -/
def msg125 : XmlMsg := ⟨125, "POWER_STATUS",
  [⟨"Vcc", u16, 0⟩, ⟨"Vservo", u16, 0⟩, ⟨"flags", u16, 0⟩]⟩

/-- HC_dialect.xml:2808-2816 -/
def msg126 : XmlMsg := ⟨126, "SERIAL_CONTROL",
  [⟨"device", u8, 0⟩, ⟨"flags", u8, 0⟩, ⟨"timeout", u16, 0⟩, ⟨"baudrate", u32, 0⟩, ⟨"count", u8, 0⟩, ⟨"data", u8, 80⟩]⟩

/-- HC_dialect.xml:2817-2832 -/
def msg127 : XmlMsg := ⟨127, "GPS_RTK",
  [⟨"time_last_baseline_ms", u32, 0⟩, ⟨"rtk_receiver_id", u8, 0⟩, ⟨"wn", u16, 0⟩, ⟨"tow", u32, 0⟩,
    ⟨"rtk_health", u8, 0⟩, ⟨"rtk_rate", u8, 0⟩, ⟨"nsats", u8, 0⟩, ⟨"baseline_coords_type", u8, 0⟩,
    ⟨"baseline_a_mm", i32, 0⟩, ⟨"baseline_b_mm", i32, 0⟩, ⟨"baseline_c_mm", i32, 0⟩, ⟨"accuracy", u32, 0⟩,
    ⟨"iar_num_hypotheses", i32, 0⟩]⟩

/-- HC_dialect.xml:2833-2848 -/
def msg128 : XmlMsg := ⟨128, "GPS2_RTK",
  [⟨"time_last_baseline_ms", u32, 0⟩, ⟨"rtk_receiver_id", u8, 0⟩, ⟨"wn", u16, 0⟩, ⟨"tow", u32, 0⟩,
    ⟨"rtk_health", u8, 0⟩, ⟨"rtk_rate", u8, 0⟩, ⟨"nsats", u8, 0⟩, ⟨"baseline_coords_type", u8, 0⟩,
    ⟨"baseline_a_mm", i32, 0⟩, ⟨"baseline_b_mm", i32, 0⟩, ⟨"baseline_c_mm", i32, 0⟩, ⟨"accuracy", u32, 0⟩,
    ⟨"iar_num_hypotheses", i32, 0⟩]⟩

/-- HC_dialect.xml:2849-2861 -/
def msg129 : XmlMsg := ⟨129, "SCALED_IMU3",
  [⟨"time_boot_ms", u32, 0⟩, ⟨"xacc", f32, 0⟩, ⟨"yacc", f32, 0⟩, ⟨"zacc", f32, 0⟩, ⟨"xgyro", f32, 0⟩,
    ⟨"ygyro", f32, 0⟩, ⟨"zgyro", f32, 0⟩, ⟨"xmag", f32, 0⟩, ⟨"ymag", f32, 0⟩, ⟨"zmag", f32, 0⟩]⟩

/-- HC_dialect.xml:2862-2871 -/
def msg130 : XmlMsg := ⟨130, "DATA_TRANSMISSION_HANDSHAKE",
  [⟨"type", u8, 0⟩, ⟨"size", u32, 0⟩, ⟨"width", u16, 0⟩, ⟨"height", u16, 0⟩, ⟨"packets", u16, 0⟩, ⟨"payload", u8, 0⟩,
    ⟨"jpg_quality", u8, 0⟩]⟩

/-- HC_dialect.xml:2872-2876 -/
def msg131 : XmlMsg := ⟨131, "ENCAPSULATED_DATA",
  [⟨"seqnr", u16, 0⟩, ⟨"data", u8, 253⟩]⟩

/-- HC_dialect.xml:2877-2887 -/
def msg132 : XmlMsg := ⟨132, "DISTANCE_SENSOR",
  [⟨"time_boot_ms", u32, 0⟩, ⟨"min_distance", u16, 0⟩, ⟨"max_distance", u16, 0⟩, ⟨"current_distance", u16, 0⟩,
    ⟨"type", u8, 0⟩, ⟨"id", u8, 0⟩, ⟨"orientation", u8, 0⟩, ⟨"covariance", u8, 0⟩]⟩

/-- HC_dialect.xml:2888-2894 -/
def msg133 : XmlMsg := ⟨133, "TERRAIN_REQUEST",
  [⟨"lat", i32, 0⟩, ⟨"lon", i32, 0⟩, ⟨"grid_spacing", u16, 0⟩, ⟨"mask", u64, 0⟩]⟩

/-- HC_dialect.xml:2895-2902 -/
def msg134 : XmlMsg := ⟨134, "TERRAIN_DATA",
  [⟨"lat", i32, 0⟩, ⟨"lon", i32, 0⟩, ⟨"grid_spacing", u16, 0⟩, ⟨"gridbit", u8, 0⟩, ⟨"data", i16, 16⟩]⟩

/-- HC_dialect.xml:2903-2907 -/
def msg135 : XmlMsg := ⟨135, "TERRAIN_CHECK",
  [⟨"lat", i32, 0⟩, ⟨"lon", i32, 0⟩]⟩

/-- HC_dialect.xml:2908-2917 -/
def msg136 : XmlMsg := ⟨136, "TERRAIN_REPORT",
  [⟨"lat", i32, 0⟩, ⟨"lon", i32, 0⟩, ⟨"spacing", u16, 0⟩, ⟨"terrain_height", f32, 0⟩, ⟨"current_height", f32, 0⟩,
    ⟨"pending", u16, 0⟩, ⟨"loaded", u16, 0⟩]⟩

/-- HC_dialect.xml:2918-2924 -/
def msg137 : XmlMsg := ⟨137, "SCALED_PRESSURE2",
  [⟨"time_boot_ms", u32, 0⟩, ⟨"press_abs", f32, 0⟩, ⟨"press_diff", f32, 0⟩, ⟨"temperature", f32, 0⟩]⟩

/-- HC_dialect.xml:2925-2932 -/
def msg138 : XmlMsg := ⟨138, "ATT_POS_MOCAP",
  [⟨"time_usec", u64, 0⟩, ⟨"q", f32, 4⟩, ⟨"x", f32, 0⟩, ⟨"y", f32, 0⟩, ⟨"z", f32, 0⟩]⟩

/-- HC_dialect.xml:2933-2940 -/
def msg139 : XmlMsg := ⟨139, "SET_ACTUATOR_CONTROL_TARGET",
  [⟨"time_usec", u64, 0⟩, ⟨"group_mlx", u8, 0⟩, ⟨"target_system", u8, 0⟩, ⟨"target_component", u8, 0⟩,
    ⟨"controls", f32, 8⟩]⟩

/-- HC_dialect.xml:2941-2946 -/
def msg140 : XmlMsg := ⟨140, "ACTUATOR_CONTROL_TARGET",
  [⟨"time_usec", u64, 0⟩, ⟨"group_mlx", u8, 0⟩, ⟨"controls", f32, 8⟩]⟩

/-- HC_dialect.xml:2947-2956 -/
def msg141 : XmlMsg := ⟨141, "ALTITUDE",
  [⟨"time_usec", u64, 0⟩, ⟨"altitude_monotonic", f32, 0⟩, ⟨"altitude_amsl", f32, 0⟩, ⟨"altitude_local", f32, 0⟩,
    ⟨"altitude_relative", f32, 0⟩, ⟨"altitude_terrain", f32, 0⟩, ⟨"bottom_clearance", f32, 0⟩]⟩

/-- HC_dialect.xml:2957-2964 -/
def msg142 : XmlMsg := ⟨142, "RESOURCE_REQUEST",
  [⟨"request_id", u8, 0⟩, ⟨"uri_type", u8, 0⟩, ⟨"uri", u8, 120⟩, ⟨"transfer_type", u8, 0⟩, ⟨"storage", u8, 120⟩]⟩

/-- HC_dialect.xml:2965-2971 -/
def msg143 : XmlMsg := ⟨143, "SCALED_PRESSURE3",
  [⟨"time_boot_ms", u32, 0⟩, ⟨"press_abs", f32, 0⟩, ⟨"press_diff", f32, 0⟩, ⟨"temperature", f32, 0⟩]⟩

/-- HC_dialect.xml:2972-2991 -/
def msg146 : XmlMsg := ⟨146, "CONTROL_SYSTEM_STATE",
  [⟨"time_usec", u64, 0⟩, ⟨"x_acc", f32, 0⟩, ⟨"y_acc", f32, 0⟩, ⟨"z_acc", f32, 0⟩, ⟨"x_vel", f32, 0⟩,
    ⟨"y_vel", f32, 0⟩, ⟨"z_vel", f32, 0⟩, ⟨"x_pos", f32, 0⟩, ⟨"y_pos", f32, 0⟩, ⟨"z_pos", f32, 0⟩,
    ⟨"airspeed", f32, 0⟩, ⟨"vel_variance", f32, 3⟩, ⟨"pos_variance", f32, 3⟩, ⟨"q", f32, 4⟩, ⟨"roll_rate", f32, 0⟩,
    ⟨"pitch_rate", f32, 0⟩, ⟨"yaw_rate", f32, 0⟩]⟩

/-- HC_dialect.xml:2992-3003 -/
def msg147 : XmlMsg := ⟨147, "BATTERY_STATUS",
  [⟨"id", u8, 0⟩, ⟨"battery_function", u8, 0⟩, ⟨"type", u8, 0⟩, ⟨"temperature", i16, 0⟩, ⟨"voltages", u16, 10⟩,
    ⟨"current_battery", i16, 0⟩, ⟨"current_consumed", i32, 0⟩, ⟨"energy_consumed", i32, 0⟩,
    ⟨"battery_remaining", i8, 0⟩]⟩

/-- HC_dialect.xml:3004-3018 -/
def msg148 : XmlMsg := ⟨148, "AUTOPILOT_VERSION",
  [⟨"capabilities", u64, 0⟩, ⟨"main_sw_build_time", u64, 0⟩, ⟨"main_sw_version", u32, 0⟩,
    ⟨"mavlink_sw_version", u32, 0⟩, ⟨"os_sw_version", u32, 0⟩, ⟨"board_version", u32, 0⟩,
    ⟨"main_custom_version", u8, 8⟩, ⟨"mavlink_custom_version", u8, 8⟩, ⟨"os_custom_version", u8, 8⟩,
    ⟨"vendor_id", u16, 0⟩, ⟨"product_id", u16, 0⟩, ⟨"uid", u32, 3⟩]⟩

/-- HC_dialect.xml:3019-3029 -/
def msg149 : XmlMsg := ⟨149, "LANDING_TARGET",
  [⟨"time_usec", u64, 0⟩, ⟨"target_num", u8, 0⟩, ⟨"frame", u8, 0⟩, ⟨"angle_x", f32, 0⟩, ⟨"angle_y", f32, 0⟩,
    ⟨"distance", f32, 0⟩, ⟨"size_x", f32, 0⟩, ⟨"size_y", f32, 0⟩]⟩

/-- HC_dialect.xml:3031-3040 -/
def msg241 : XmlMsg := ⟨241, "VIBRATION",
  [⟨"time_usec", u64, 0⟩, ⟨"vibration_x", f32, 0⟩, ⟨"vibration_y", f32, 0⟩, ⟨"vibration_z", f32, 0⟩,
    ⟨"clipping_0", u32, 0⟩, ⟨"clipping_1", u32, 0⟩, ⟨"clipping_2", u32, 0⟩]⟩

/-- HC_dialect.xml:3041-3053 -/
def msg242 : XmlMsg := ⟨242, "HOME_POSITION",
  [⟨"latitude", i32, 0⟩, ⟨"longitude", i32, 0⟩, ⟨"altitude", f32, 0⟩, ⟨"x", f32, 0⟩, ⟨"y", f32, 0⟩, ⟨"z", f32, 0⟩,
    ⟨"q", f32, 4⟩, ⟨"approach_x", f32, 0⟩, ⟨"approach_y", f32, 0⟩, ⟨"approach_z", f32, 0⟩]⟩

/-- HC_dialect.xml:3054-3067 -/
def msg243 : XmlMsg := ⟨243, "SET_HOME_POSITION",
  [⟨"target_system", u8, 0⟩, ⟨"latitude", i32, 0⟩, ⟨"longitude", i32, 0⟩, ⟨"altitude", f32, 0⟩, ⟨"x", f32, 0⟩,
    ⟨"y", f32, 0⟩, ⟨"z", f32, 0⟩, ⟨"q", f32, 4⟩, ⟨"approach_x", f32, 0⟩, ⟨"approach_y", f32, 0⟩,
    ⟨"approach_z", f32, 0⟩]⟩

/-- HC_dialect.xml:3068-3072 -/
def msg244 : XmlMsg := ⟨244, "MESSAGE_INTERVAL",
  [⟨"message_id", u16, 0⟩, ⟨"interval_us", i32, 0⟩]⟩

/-- HC_dialect.xml:3073-3077 -/
def msg245 : XmlMsg := ⟨245, "EXTENDED_SYS_STATE",
  [⟨"vtol_state", u8, 0⟩, ⟨"landed_state", u8, 0⟩]⟩

/-- HC_dialect.xml:3078-3093 -/
def msg246 : XmlMsg := ⟨246, "ADSB_VEHICLE",
  [⟨"ICAO_address", u32, 0⟩, ⟨"lat", i32, 0⟩, ⟨"lon", i32, 0⟩, ⟨"altitude_type", u8, 0⟩, ⟨"altitude", i32, 0⟩,
    ⟨"heading", u16, 0⟩, ⟨"hor_velocity", u16, 0⟩, ⟨"ver_velocity", u16, 0⟩, ⟨"callsign", char, 9⟩,
    ⟨"emitter_type", u8, 0⟩, ⟨"tslc", u8, 0⟩, ⟨"flags", u16, 0⟩, ⟨"squawk", u16, 0⟩]⟩

/-- HC_dialect.xml:3094-3101 -/
def msg248 : XmlMsg := ⟨248, "V2_EXTENSION",
  [⟨"target_network", u8, 0⟩, ⟨"target_system", u8, 0⟩, ⟨"target_component", u8, 0⟩, ⟨"message_type", u16, 0⟩,
    ⟨"payload", u8, 249⟩]⟩

/-- HC_dialect.xml:3102-3108 -/
def msg249 : XmlMsg := ⟨249, "MEMORY_VECT",
  [⟨"address", u16, 0⟩, ⟨"ver", u8, 0⟩, ⟨"type", u8, 0⟩, ⟨"value", i8, 32⟩]⟩

/-- HC_dialect.xml:3109-3116 -/
def msg250 : XmlMsg := ⟨250, "DEBUG_VECT",
  [⟨"name", char, 10⟩, ⟨"time_usec", u64, 0⟩, ⟨"x", f32, 0⟩, ⟨"y", f32, 0⟩, ⟨"z", f32, 0⟩]⟩

/-- HC_dialect.xml:3117-3122 -/
def msg251 : XmlMsg := ⟨251, "NAMED_VALUE_FLOAT",
  [⟨"time_boot_ms", u32, 0⟩, ⟨"name", char, 10⟩, ⟨"value", f32, 0⟩]⟩

/-- HC_dialect.xml:3123-3128 -/
def msg252 : XmlMsg := ⟨252, "NAMED_VALUE_INT",
  [⟨"time_boot_ms", u32, 0⟩, ⟨"name", char, 10⟩, ⟨"value", i32, 0⟩]⟩

/-- HC_dialect.xml:3129-3133 -/
def msg253 : XmlMsg := ⟨253, "STATUSTEXT",
  [⟨"severity", u8, 0⟩, ⟨"text", char, 50⟩]⟩

/-- HC_dialect.xml:3134-3139 -/
def msg254 : XmlMsg := ⟨254, "DEBUG",
  [⟨"time_boot_ms", u32, 0⟩, ⟨"ind", u8, 0⟩, ⟨"value", f32, 0⟩]⟩

/-- HC_dialect.xml:3145-3150 -/
def msg211 : XmlMsg := ⟨211, "ALTIMETER_SENSOR",
  [⟨"time_boot_ms", u32, 0⟩, ⟨"Altitude_front", f32, 0⟩, ⟨"Altitude_back", f32, 0⟩]⟩

/-- HC_dialect.xml:3151-3159 -/
def msg212 : XmlMsg := ⟨212, "SCALED_SVS",
  [⟨"time_boot_ms", u32, 0⟩, ⟨"Speed_of_Sound", f32, 0⟩, ⟨"Depth", f32, 0⟩, ⟨"Temperature", u16, 0⟩,
    ⟨"Status", u8, 0⟩, ⟨"Reserved", f32, 0⟩]⟩

/-- HC_dialect.xml:3160-3168 -/
def msg213 : XmlMsg := ⟨213, "CTD_STATUS",
  [⟨"time_boot_ms", u32, 0⟩, ⟨"Conductivity", f32, 0⟩, ⟨"Depth", f32, 0⟩, ⟨"Temperature", u16, 0⟩, ⟨"Status", u8, 0⟩,
    ⟨"Reserved", f32, 0⟩]⟩

/-- HC_dialect.xml:3169-3180 -/
def msg214 : XmlMsg := ⟨214, "MOTOR_STATUS",
  [⟨"time_boot_ms", u32, 0⟩, ⟨"motor_num", u8, 0⟩, ⟨"rpm", i16, 0⟩, ⟨"voltage", u16, 0⟩, ⟨"current", u16, 0⟩,
    ⟨"Status", u8, 0⟩, ⟨"Fault", u8, 0⟩, ⟨"temperature", u16, 0⟩, ⟨"pressure", f32, 0⟩]⟩

/-- HC_dialect.xml:3181-3189 -/
def msg215 : XmlMsg := ⟨215, "RF_MODEM_STATUS",
  [⟨"time_boot_ms", u32, 0⟩, ⟨"Bit_Rate", u32, 0⟩, ⟨"Status", u8, 0⟩, ⟨"current", u16, 0⟩, ⟨"Reserved", f32, 0⟩,
    ⟨"Reserved2", f32, 0⟩]⟩

/-- HC_dialect.xml:3190-3204 -/
def msg216 : XmlMsg := ⟨216, "SYSTEM_ONOFF_REQ",
  [⟨"time_boot_ms", u32, 0⟩, ⟨"status", u16, 0⟩]⟩

/-- HC_dialect.xml:3205-3219 -/
def msg217 : XmlMsg := ⟨217, "SYSTEM_ONOFF_STATUS",
  [⟨"time_boot_ms", u32, 0⟩, ⟨"status", u16, 0⟩]⟩

/-- HC_dialect.xml:3220-3227 -/
def msg218 : XmlMsg := ⟨218, "CHAMBER_STATUS",
  [⟨"time_boot_ms", u32, 0⟩, ⟨"chamber_num", u8, 0⟩, ⟨"pressure", u8, 0⟩, ⟨"temperature", u16, 0⟩,
    ⟨"humidity", u16, 0⟩]⟩

/-- HC_dialect.xml:3228-3242 -/
def msg219 : XmlMsg := ⟨219, "TASK_STATUS",
  [⟨"taskID", u8, 0⟩, ⟨"task_status", u8, 0⟩, ⟨"time", u16, 0⟩, ⟨"task_time", u16, 0⟩, ⟨"task_count", u16, 0⟩,
    ⟨"parse_success_count", u16, 0⟩, ⟨"parse_error_count", u16, 0⟩, ⟨"interupt_count", u16, 0⟩, ⟨"rst_count", u16, 0⟩,
    ⟨"err1", u8, 0⟩, ⟨"err2", u8, 0⟩]⟩

/-- HC_dialect.xml:3243-3273 -/
def msg220 : XmlMsg := ⟨220, "PARAM_EST_TEST",
  [⟨"time_boot_ms_imu", u32, 0⟩, ⟨"time_boot_ms_io", u32, 0⟩, ⟨"gyro_x", f32, 0⟩, ⟨"gyro_y", f32, 0⟩,
    ⟨"gyro_z", f32, 0⟩, ⟨"gyro_dot_x", f32, 0⟩, ⟨"gyro_dot_y", f32, 0⟩, ⟨"gyro_dot_z", f32, 0⟩, ⟨"accel_x", f32, 0⟩,
    ⟨"accel_y", f32, 0⟩, ⟨"accel_z", f32, 0⟩, ⟨"accel_no_g_x", f32, 0⟩, ⟨"accel_no_g_y", f32, 0⟩,
    ⟨"accel_no_g_z", f32, 0⟩, ⟨"dvl_x", f32, 0⟩, ⟨"dvl_y", f32, 0⟩, ⟨"dvl_z", f32, 0⟩, ⟨"roll", f32, 0⟩,
    ⟨"pitch", f32, 0⟩, ⟨"yaw", f32, 0⟩, ⟨"motor1_rpm", i16, 0⟩, ⟨"motor2_rpm", i16, 0⟩, ⟨"motor3_rpm", i16, 0⟩,
    ⟨"motor4_rpm", i16, 0⟩, ⟨"motor5_rpm", i16, 0⟩, ⟨"motor6_rpm", i16, 0⟩, ⟨"motor7_rpm", i16, 0⟩]⟩

/-- HC_dialect.xml:3274-3278 -/
def msg221 : XmlMsg := ⟨221, "MOTOR_CMD",
  [⟨"mode", u8, 0⟩, ⟨"speed", i16, 10⟩]⟩

/-- HC_dialect.xml:3279-3288 -/
def msg222 : XmlMsg := ⟨222, "BATHYMETRY",
  [⟨"time_usec", u64, 0⟩, ⟨"depth", f32, 0⟩, ⟨"altitude", f32, 0⟩, ⟨"distance", f32, 0⟩, ⟨"range_from_body", f32, 0⟩,
    ⟨"seabed_phi", f32, 0⟩, ⟨"seabed_theta", f32, 0⟩]⟩

/-- HC_dialect.xml:3289-3300 -/
def msg223 : XmlMsg := ⟨223, "POWER_CONSUMPTION_MOTORS",
  [⟨"time_boot_ms", u32, 0⟩, ⟨"current_ml", f32, 0⟩, ⟨"current_mr", f32, 0⟩, ⟨"current_p", f32, 0⟩,
    ⟨"current_yb", f32, 0⟩, ⟨"current_yf", f32, 0⟩, ⟨"current_wl", f32, 0⟩, ⟨"current_wr", f32, 0⟩,
    ⟨"battery_voltage", f32, 0⟩]⟩

/-- HC_dialect.xml:3301-3312 -/
def msg224 : XmlMsg := ⟨224, "POWER_CONSUMPTION_2",
  [⟨"time_boot_ms", u32, 0⟩, ⟨"current_1", f32, 0⟩, ⟨"voltage_1", f32, 0⟩, ⟨"current_2", f32, 0⟩,
    ⟨"voltage_2", f32, 0⟩, ⟨"current_3", f32, 0⟩, ⟨"voltage_3", f32, 0⟩, ⟨"current_4", f32, 0⟩, ⟨"voltage_4", f32, 0⟩]⟩

/-- HC_dialect.xml:3313-3321 -/
def msg225 : XmlMsg := ⟨225, "SYSTEM_STATUS_2",
  [⟨"time_boot_ms", u32, 0⟩, ⟨"hc_mode", u16, 0⟩, ⟨"hc_system_status", u16, 0⟩, ⟨"hc_err_id", u32, 0⟩,
    ⟨"debug1", f32, 0⟩, ⟨"debug2", f32, 0⟩]⟩

/-- HC_dialect.xml:3322-3332 -/
def msg226 : XmlMsg := ⟨226, "GPS_TIMING",
  [⟨"time_boot_ms", u32, 0⟩, ⟨"tow_ms", i32, 0⟩, ⟨"tow_ns", i32, 0⟩, ⟨"accuracy", u32, 0⟩, ⟨"local_time_s", f32, 0⟩,
    ⟨"gps_fix", u8, 0⟩, ⟨"rtc_month", u8, 0⟩, ⟨"rtc_day", u8, 0⟩]⟩

/-- HC_dialect.xml:3333-3338 -/
def msg227 : XmlMsg := ⟨227, "MAGNETOMETER_CALIBRATION",
  [⟨"time_boot_ms", u32, 0⟩, ⟨"bias", f32, 3⟩, ⟨"scaling_matrix", f32, 9⟩]⟩

/-- HC_dialect.xml:3339-3352 -/
def msg228 : XmlMsg := ⟨228, "ALGORITHM_STATUS",
  [⟨"time_boot_ms", u32, 0⟩, ⟨"rate", u16, 0⟩, ⟨"nav_type", u32, 0⟩, ⟨"external_heading", u8, 0⟩,
    ⟨"calibrated", u8, 0⟩, ⟨"reset", u8, 0⟩, ⟨"hc_maneuver", u8, 0⟩, ⟨"hc_maneuver2", u8, 0⟩,
    ⟨"velocity_inov", f32, 0⟩, ⟨"attitude_cov", f32, 0⟩, ⟨"pos_cov", f32, 0⟩]⟩

/-- HC_dialect.xml:3353-3370 -/
def msg229 : XmlMsg := ⟨229, "DVL_BT_RAW",
  [⟨"time_boot_ms", u32, 0⟩, ⟨"v1", i16, 0⟩, ⟨"v2", i16, 0⟩, ⟨"v3", i16, 0⟩, ⟨"v_err", i16, 0⟩, ⟨"wm_v1", i16, 0⟩,
    ⟨"wm_v2", i16, 0⟩, ⟨"wm_v3", i16, 0⟩, ⟨"wm_v4", i16, 0⟩, ⟨"range_1", u32, 0⟩, ⟨"range_2", u32, 0⟩,
    ⟨"range_3", u32, 0⟩, ⟨"range_4", u32, 0⟩, ⟨"good_beams_precentege", u8, 0⟩, ⟨"ensamble_number", u32, 0⟩]⟩

/-- HC_dialect.xml:3371-3379 -/
def msg230 : XmlMsg := ⟨230, "DVL_BT_SCALED",
  [⟨"time_boot_ms", u32, 0⟩, ⟨"v1", f32, 0⟩, ⟨"v2", f32, 0⟩, ⟨"v3", f32, 0⟩, ⟨"altitude", f32, 0⟩,
    ⟨"distance", f32, 0⟩]⟩

/-- HC_dialect.xml:3381-3409 -/
def msg231 : XmlMsg := ⟨231, "DVL_BT_HIGHRES",
  [⟨"time_boot_ms", u32, 0⟩, ⟨"V1", i32, 0⟩, ⟨"V2", i32, 0⟩, ⟨"V3", i32, 0⟩, ⟨"V4", i32, 0⟩, ⟨"Bt_Dmg_1", i32, 0⟩,
    ⟨"Bt_Dmg_2", i32, 0⟩, ⟨"Bt_Dmg_3", i32, 0⟩, ⟨"Bt_Dmg_4", i32, 0⟩, ⟨"Ref_Frame", u8, 0⟩, ⟨"Wm_V1", i32, 0⟩,
    ⟨"Wm_V2", i32, 0⟩, ⟨"Wm_V3", i32, 0⟩, ⟨"Wm_V4", i32, 0⟩, ⟨"Svs", u32, 0⟩, ⟨"Slant_range", u32, 0⟩,
    ⟨"Axes_delta_range", u32, 0⟩, ⟨"Vertical_range", u32, 0⟩, ⟨"Percent_good_4bm", u8, 0⟩,
    ⟨"Percent_good_12bm", u8, 0⟩, ⟨"Percent_good_34bm", u8, 0⟩, ⟨"Bm_1_raw_range", u32, 0⟩,
    ⟨"Bm_2_raw_range", u32, 0⟩, ⟨"Bm_3_raw_range", u32, 0⟩, ⟨"Bm_4_raw_range", u32, 0⟩]⟩

/-- HC_dialect.xml:3410-3431 -/
def msg232 : XmlMsg := ⟨232, "DVL_WP_RAW",
  [⟨"time_boot_ms", u32, 0⟩, ⟨"Depth_Cell_ID", u8, 0⟩, ⟨"v1", i16, 0⟩, ⟨"v2", i16, 0⟩, ⟨"v3", i16, 0⟩,
    ⟨"v_err", i16, 0⟩, ⟨"Depth_Correlation_1", u8, 0⟩, ⟨"Depth_Correlation_2", u8, 0⟩, ⟨"Depth_Correlation_3", u8, 0⟩,
    ⟨"Depth_Correlation_4", u8, 0⟩, ⟨"Depth_Echo_Intensity_1", u8, 0⟩, ⟨"Depth_Echo_Intensity_2", u8, 0⟩,
    ⟨"Depth_Echo_Intensity_3", u8, 0⟩, ⟨"Depth_Echo_Intensity_4", u8, 0⟩, ⟨"Percent_Good_1", u8, 0⟩,
    ⟨"Percent_Good_2", u8, 0⟩, ⟨"Percent_Good_3", u8, 0⟩, ⟨"Percent_Good_4", u8, 0⟩, ⟨"status", u8, 0⟩]⟩

/-- HC_dialect.xml:3432-3442 -/
def msg233 : XmlMsg := ⟨233, "TIME_DATE_INFO",
  [⟨"time_boot_ms", u32, 0⟩, ⟨"year", u16, 0⟩, ⟨"month", u8, 0⟩, ⟨"day", u8, 0⟩, ⟨"hours", u8, 0⟩, ⟨"minutes", u8, 0⟩,
    ⟨"seconds", u8, 0⟩, ⟨"millisec", u16, 0⟩]⟩

/-- HC_dialect.xml:3443-3449 -/
def msg234 : XmlMsg := ⟨234, "PINGER_DATA",
  [⟨"time_boot_ms", u32, 0⟩, ⟨"range", f32, 0⟩, ⟨"azimuth", f32, 0⟩]⟩

/-- HC_dialect.xml:3450-3458 -/
def msg235 : XmlMsg := ⟨235, "HC_ACOUSTIC_POS",
  [⟨"time_boot_ms", u32, 0⟩, ⟨"range", f32, 0⟩, ⟨"azimuth", f32, 0⟩, ⟨"lat_1", i32, 0⟩, ⟨"lon_1", i32, 0⟩,
    ⟨"tow_1", u32, 0⟩]⟩

/-- HC_dialect.xml:3459-3468 -/
def msg236 : XmlMsg := ⟨236, "DEBUG_MSG_1",
  [⟨"time_boot_ms", u32, 0⟩, ⟨"debug_1_1", f32, 0⟩, ⟨"debug_1_2", f32, 0⟩, ⟨"debug_1_3", f32, 0⟩,
    ⟨"debug_1_4", f32, 0⟩, ⟨"debug_1_5", f32, 0⟩, ⟨"debug_1_6", f32, 0⟩]⟩

/-- HC_dialect.xml:3469-3480 -/
def msg237 : XmlMsg := ⟨237, "HC_ACOUSTIC_CHANNEL",
  [⟨"time_boot_ms", u32, 0⟩, ⟨"mpd", f32, 0⟩, ⟨"psnr", f32, 0⟩, ⟨"agc", i32, 0⟩, ⟨"spd", f32, 0⟩, ⟨"crc_pass", u8, 0⟩,
    ⟨"ccerr", u8, 0⟩, ⟨"source", u8, 0⟩, ⟨"destination", u8, 0⟩]⟩

/-- HC_dialect.xml:3481-3488 -/
def msg238 : XmlMsg := ⟨238, "ACOUSTIC_TRANSMISSION_LOG",
  [⟨"time_boot_ms", u32, 0⟩, ⟨"tow_ms", i32, 0⟩, ⟨"count", u8, 0⟩, ⟨"slot_num", u8, 0⟩, ⟨"data", u8, 200⟩]⟩

/-- The messages of HC_dialect.xml. -/
def messages : List XmlMsg :=
  [msg0, msg1, msg2, msg4, msg5, msg6, msg7, msg11, msg20, msg21, msg22, msg23, msg24, msg25, msg26, msg27, msg28,
    msg29, msg30, msg31, msg32, msg33, msg34, msg35, msg36, msg37, msg38, msg39, msg40, msg41, msg42, msg43, msg44,
    msg45, msg46, msg47, msg48, msg49, msg50, msg54, msg55, msg61, msg62, msg63, msg64, msg65, msg66, msg67, msg69,
    msg70, msg73, msg74, msg75, msg76, msg77, msg81, msg82, msg83, msg84, msg85, msg86, msg87, msg89, msg90, msg91,
    msg92, msg100, msg101, msg102, msg103, msg104, msg105, msg106, msg107, msg108, msg109, msg110, msg111, msg112,
    msg113, msg114, msg115, msg116, msg117, msg118, msg119, msg120, msg121, msg122, msg123, msg124, msg125, msg126,
    msg127, msg128, msg129, msg130, msg131, msg132, msg133, msg134, msg135, msg136, msg137, msg138, msg139, msg140,
    msg141, msg142, msg143, msg146, msg147, msg148, msg149, msg241, msg242, msg243, msg244, msg245, msg246, msg248,
    msg249, msg250, msg251, msg252, msg253, msg254, msg211, msg212, msg213, msg214, msg215, msg216, msg217, msg218,
    msg219, msg220, msg221, msg222, msg223, msg224, msg225, msg226, msg227, msg228, msg229, msg230, msg231, msg232,
    msg233, msg234, msg235, msg236, msg237, msg238]

/-- HC_dialect.xml:5-61 -/
def enum0 : XmlEnum := ⟨"MAV_AUTOPILOT",
  [(some 0, "MAV_AUTOPILOT_GENERIC"), (some 1, "MAV_AUTOPILOT_RESERVED"), (some 2, "MAV_AUTOPILOT_SLUGS"),
    (some 3, "MAV_AUTOPILOT_ARDUPILOTMEGA"), (some 4, "MAV_AUTOPILOT_OPENPILOT"),
    (some 5, "MAV_AUTOPILOT_GENERIC_WAYPOINTS_ONLY"),
    (some 6, "MAV_AUTOPILOT_GENERIC_WAYPOINTS_AND_SIMPLE_NAVIGATION_ONLY"),
    (some 7, "MAV_AUTOPILOT_GENERIC_MISSION_FULL"), (some 8, "MAV_AUTOPILOT_INVALID"), (some 9, "MAV_AUTOPILOT_PPZ"),
    (some 10, "MAV_AUTOPILOT_UDB"), (some 11, "MAV_AUTOPILOT_FP"), (some 12, "MAV_AUTOPILOT_PX4"),
    (some 13, "MAV_AUTOPILOT_SMACCMPILOT"), (some 14, "MAV_AUTOPILOT_AUTOQUAD"), (some 15, "MAV_AUTOPILOT_ARMAZILA"),
    (some 16, "MAV_AUTOPILOT_AEROB"), (some 17, "MAV_AUTOPILOT_ASLUAV")]⟩

/-- HC_dialect.xml:62-148 -/
def enum1 : XmlEnum := ⟨"MAV_TYPE",
  [(some 0, "MAV_TYPE_GENERIC"), (some 1, "MAV_TYPE_FIXED_WING"), (some 2, "MAV_TYPE_QUADROTOR"),
    (some 3, "MAV_TYPE_COAXIAL"), (some 4, "MAV_TYPE_HELICOPTER"), (some 5, "MAV_TYPE_ANTENNA_TRACKER"),
    (some 6, "MAV_TYPE_GCS"), (some 7, "MAV_TYPE_AIRSHIP"), (some 8, "MAV_TYPE_FREE_BALLOON"),
    (some 9, "MAV_TYPE_ROCKET"), (some 10, "MAV_TYPE_GROUND_ROVER"), (some 11, "MAV_TYPE_SURFACE_BOAT"),
    (some 12, "MAV_TYPE_SUBMARINE"), (some 13, "MAV_TYPE_HEXAROTOR"), (some 14, "MAV_TYPE_OCTOROTOR"),
    (some 15, "MAV_TYPE_TRICOPTER"), (some 16, "MAV_TYPE_FLAPPING_WING"), (some 17, "MAV_TYPE_KITE"),
    (some 18, "MAV_TYPE_ONBOARD_CONTROLLER"), (some 19, "MAV_TYPE_VTOL_DUOROTOR"),
    (some 20, "MAV_TYPE_VTOL_QUADROTOR"), (some 21, "MAV_TYPE_VTOL_TILTROTOR"), (some 22, "MAV_TYPE_VTOL_RESERVED2"),
    (some 23, "MAV_TYPE_VTOL_RESERVED3"), (some 24, "MAV_TYPE_VTOL_RESERVED4"), (some 25, "MAV_TYPE_VTOL_RESERVED5"),
    (some 26, "MAV_TYPE_GIMBAL"), (some 27, "MAV_TYPE_ADSB")]⟩

/-- HC_dialect.xml:149-166 -/
def enum2 : XmlEnum := ⟨"FIRMWARE_VERSION_TYPE",
  [(some 0, "FIRMWARE_VERSION_TYPE_DEV"), (some 64, "FIRMWARE_VERSION_TYPE_ALPHA"),
    (some 128, "FIRMWARE_VERSION_TYPE_BETA"), (some 192, "FIRMWARE_VERSION_TYPE_RC"),
    (some 255, "FIRMWARE_VERSION_TYPE_OFFICIAL")]⟩

/-- HC_dialect.xml:168-194 -/
def enum3 : XmlEnum := ⟨"MAV_MODE_FLAG",
  [(some 128, "MAV_MODE_FLAG_SAFETY_ARMED"), (some 64, "MAV_MODE_FLAG_MANUAL_INPUT_ENABLED"),
    (some 32, "MAV_MODE_FLAG_HIL_ENABLED"), (some 16, "MAV_MODE_FLAG_STABILIZE_ENABLED"),
    (some 8, "MAV_MODE_FLAG_GUIDED_ENABLED"), (some 4, "MAV_MODE_FLAG_AUTO_ENABLED"),
    (some 2, "MAV_MODE_FLAG_TEST_ENABLED"), (some 1, "MAV_MODE_FLAG_CUSTOM_MODE_ENABLED")]⟩

/-- HC_dialect.xml:195-221 -/
def enum4 : XmlEnum := ⟨"MAV_MODE_FLAG_DECODE_POSITION",
  [(some 128, "MAV_MODE_FLAG_DECODE_POSITION_SAFETY"), (some 64, "MAV_MODE_FLAG_DECODE_POSITION_MANUAL"),
    (some 32, "MAV_MODE_FLAG_DECODE_POSITION_HIL"), (some 16, "MAV_MODE_FLAG_DECODE_POSITION_STABILIZE"),
    (some 8, "MAV_MODE_FLAG_DECODE_POSITION_GUIDED"), (some 4, "MAV_MODE_FLAG_DECODE_POSITION_AUTO"),
    (some 2, "MAV_MODE_FLAG_DECODE_POSITION_TEST"), (some 1, "MAV_MODE_FLAG_DECODE_POSITION_CUSTOM_MODE")]⟩

/-- HC_dialect.xml:222-236 -/
def enum5 : XmlEnum := ⟨"MAV_GOTO",
  [(some 0, "MAV_GOTO_DO_HOLD"), (some 1, "MAV_GOTO_DO_CONTINUE"), (some 2, "MAV_GOTO_HOLD_AT_CURRENT_POSITION"),
    (some 3, "MAV_GOTO_HOLD_AT_SPECIFIED_POSITION")]⟩

/-- HC_dialect.xml:237-276 -/
def enum6 : XmlEnum := ⟨"MAV_MODE",
  [(some 0, "MAV_MODE_PREFLIGHT"), (some 32, "MAV_MODE_STOP"), (some 80, "MAV_MODE_STABILIZE_DISARMED"),
    (some 208, "MAV_MODE_STABILIZE_ARMED"), (some 64, "MAV_MODE_MANUAL_DISARMED"),
    (some 192, "MAV_MODE_MANUAL_ARMED"), (some 88, "MAV_MODE_GUIDED_DISARMED"), (some 216, "MAV_MODE_GUIDED_ARMED"),
    (some 92, "MAV_MODE_AUTO_DISARMED"), (some 220, "MAV_MODE_AUTO_ARMED"), (some 66, "MAV_MODE_TEST_DISARMED"),
    (some 194, "MAV_MODE_TEST_ARMED")]⟩

/-- HC_dialect.xml:277-302 -/
def enum7 : XmlEnum := ⟨"MAV_STATE",
  [(some 0, "MAV_STATE_UNINIT"), (none, "MAV_STATE_BOOT"), (none, "MAV_STATE_CALIBRATING"),
    (none, "MAV_STATE_STANDBY"), (none, "MAV_STATE_ACTIVE"), (none, "MAV_STATE_CRITICAL"),
    (none, "MAV_STATE_EMERGENCY"), (none, "MAV_STATE_POWEROFF")]⟩

/-- HC_dialect.xml:303-391 -/
def enum8 : XmlEnum := ⟨"MAV_COMPONENT",
  [(some 0, "MAV_COMP_ID_ALL"), (some 220, "MAV_COMP_ID_GPS"), (some 190, "MAV_COMP_ID_MISSIONPLANNER"),
    (some 195, "MAV_COMP_ID_PATHPLANNER"), (some 180, "MAV_COMP_ID_MAPPER"), (some 100, "MAV_COMP_ID_CAMERA"),
    (some 200, "MAV_COMP_ID_IMU"), (some 201, "MAV_COMP_ID_IMU_2"), (some 202, "MAV_COMP_ID_IMU_3"),
    (some 240, "MAV_COMP_ID_UDP_BRIDGE"), (some 241, "MAV_COMP_ID_UART_BRIDGE"),
    (some 250, "MAV_COMP_ID_SYSTEM_CONTROL"), (some 140, "MAV_COMP_ID_SERVO1"), (some 141, "MAV_COMP_ID_SERVO2"),
    (some 142, "MAV_COMP_ID_SERVO3"), (some 143, "MAV_COMP_ID_SERVO4"), (some 144, "MAV_COMP_ID_SERVO5"),
    (some 145, "MAV_COMP_ID_SERVO6"), (some 146, "MAV_COMP_ID_SERVO7"), (some 147, "MAV_COMP_ID_SERVO8"),
    (some 148, "MAV_COMP_ID_SERVO9"), (some 149, "MAV_COMP_ID_SERVO10"), (some 150, "MAV_COMP_ID_SERVO11"),
    (some 151, "MAV_COMP_ID_SERVO12"), (some 152, "MAV_COMP_ID_SERVO13"), (some 153, "MAV_COMP_ID_SERVO14"),
    (some 154, "MAV_COMP_ID_GIMBAL"), (some 155, "MAV_COMP_ID_LOG"), (some 156, "MAV_COMP_ID_ADSB")]⟩

/-- HC_dialect.xml:392-463 -/
def enum9 : XmlEnum := ⟨"MAV_SYS_STATUS_SENSOR",
  [(some 1, "MAV_SYS_STATUS_SENSOR_3D_GYRO"), (some 2, "MAV_SYS_STATUS_SENSOR_3D_ACCEL"),
    (some 4, "MAV_SYS_STATUS_SENSOR_3D_MAG"), (some 8, "MAV_SYS_STATUS_SENSOR_ABSOLUTE_PRESSURE"),
    (some 16, "MAV_SYS_STATUS_SENSOR_DIFFERENTIAL_PRESSURE"), (some 32, "MAV_SYS_STATUS_SENSOR_GPS"),
    (some 64, "MAV_SYS_STATUS_SENSOR_OPTICAL_FLOW"), (some 128, "MAV_SYS_STATUS_SENSOR_VISION_POSITION"),
    (some 256, "MAV_SYS_STATUS_SENSOR_LASER_POSITION"), (some 512, "MAV_SYS_STATUS_SENSOR_EXTERNAL_GROUND_TRUTH"),
    (some 1024, "MAV_SYS_STATUS_SENSOR_ANGULAR_RATE_CONTROL"),
    (some 2048, "MAV_SYS_STATUS_SENSOR_ATTITUDE_STABILIZATION"), (some 4096, "MAV_SYS_STATUS_SENSOR_YAW_POSITION"),
    (some 8192, "MAV_SYS_STATUS_SENSOR_Z_ALTITUDE_CONTROL"),
    (some 16384, "MAV_SYS_STATUS_SENSOR_XY_POSITION_CONTROL"), (some 32768, "MAV_SYS_STATUS_SENSOR_MOTOR_OUTPUTS"),
    (some 65536, "MAV_SYS_STATUS_SENSOR_RC_RECEIVER"), (some 131072, "MAV_SYS_STATUS_SENSOR_3D_GYRO2"),
    (some 262144, "MAV_SYS_STATUS_SENSOR_3D_ACCEL2"), (some 524288, "MAV_SYS_STATUS_SENSOR_3D_MAG2"),
    (some 1048576, "MAV_SYS_STATUS_GEOFENCE"), (some 2097152, "MAV_SYS_STATUS_AHRS"),
    (some 4194304, "MAV_SYS_STATUS_TERRAIN")]⟩

/-- HC_dialect.xml:464-504 -/
def enum10 : XmlEnum := ⟨"MAV_FRAME",
  [(some 0, "MAV_FRAME_GLOBAL"), (some 1, "MAV_FRAME_LOCAL_NED"), (some 2, "MAV_FRAME_MISSION"),
    (some 3, "MAV_FRAME_GLOBAL_RELATIVE_ALT"), (some 4, "MAV_FRAME_LOCAL_ENU"), (some 5, "MAV_FRAME_GLOBAL_INT"),
    (some 6, "MAV_FRAME_GLOBAL_RELATIVE_ALT_INT"), (some 7, "MAV_FRAME_LOCAL_OFFSET_NED"),
    (some 8, "MAV_FRAME_BODY_NED"), (some 9, "MAV_FRAME_BODY_OFFSET_NED"), (some 10, "MAV_FRAME_GLOBAL_TERRAIN_ALT"),
    (some 11, "MAV_FRAME_GLOBAL_TERRAIN_ALT_INT"), (some 12, "MAV_FRAME_HCMISSION")]⟩

/-- HC_dialect.xml:505-524 -/
def enum11 : XmlEnum := ⟨"MAVLINK_DATA_STREAM_TYPE",
  [(none, "MAVLINK_DATA_STREAM_IMG_JPEG"), (none, "MAVLINK_DATA_STREAM_IMG_BMP"),
    (none, "MAVLINK_DATA_STREAM_IMG_RAW8U"), (none, "MAVLINK_DATA_STREAM_IMG_RAW32U"),
    (none, "MAVLINK_DATA_STREAM_IMG_PGM"), (none, "MAVLINK_DATA_STREAM_IMG_PNG")]⟩

/-- HC_dialect.xml:526-539 -/
def enum12 : XmlEnum := ⟨"FENCE_ACTION",
  [(some 0, "FENCE_ACTION_NONE"), (some 1, "FENCE_ACTION_GUIDED"), (some 2, "FENCE_ACTION_REPORT"),
    (some 3, "FENCE_ACTION_GUIDED_THR_PASS")]⟩

/-- HC_dialect.xml:541-554 -/
def enum13 : XmlEnum := ⟨"FENCE_BREACH",
  [(some 0, "FENCE_BREACH_NONE"), (some 1, "FENCE_BREACH_MINALT"), (some 2, "FENCE_BREACH_MAXALT"),
    (some 3, "FENCE_BREACH_BOUNDARY")]⟩

/-- HC_dialect.xml:556-563 -/
def enum14 : XmlEnum := ⟨"MAV_MOUNT_MODE",
  [(some 0, "MAV_MOUNT_MODE_RETRACT"), (some 1, "MAV_MOUNT_MODE_NEUTRAL"),
    (some 2, "MAV_MOUNT_MODE_MAVLINK_TARGETING"), (some 3, "MAV_MOUNT_MODE_RC_TARGETING"),
    (some 4, "MAV_MOUNT_MODE_GPS_POINT")]⟩

/-- HC_dialect.xml:564-1258 -/
def enum15 : XmlEnum := ⟨"MAV_CMD",
  [(some 16, "MAV_CMD_NAV_WAYPOINT"), (some 17, "MAV_CMD_NAV_LOITER_UNLIM"), (some 18, "MAV_CMD_NAV_LOITER_TURNS"),
    (some 19, "MAV_CMD_NAV_LOITER_TIME"), (some 20, "MAV_CMD_NAV_RETURN_TO_LAUNCH"), (some 21, "MAV_CMD_NAV_LAND"),
    (some 22, "MAV_CMD_NAV_SAFETY_REGION"), (some 23, "MAV_CMD_NAV_LAND_LOCAL"),
    (some 24, "MAV_CMD_NAV_TAKEOFF_LOCAL"), (some 25, "MAV_CMD_NAV_FOLLOW"),
    (some 30, "MAV_CMD_NAV_CONTINUE_AND_CHANGE_ALT"), (some 31, "MAV_CMD_NAV_LOITER_TO_ALT"),
    (some 80, "MAV_CMD_NAV_ROI"), (some 81, "MAV_CMD_NAV_PATHPLANNING"), (some 82, "MAV_CMD_NAV_SPLINE_WAYPOINT"),
    (some 84, "MAV_CMD_NAV_VTOL_TAKEOFF"), (some 85, "MAV_CMD_NAV_VTOL_LAND"), (some 92, "MAV_CMD_NAV_GUIDED_ENABLE"),
    (some 95, "MAV_CMD_NAV_LAST"), (some 112, "MAV_CMD_CONDITION_DELAY"), (some 113, "MAV_CMD_CONDITION_CHANGE_ALT"),
    (some 114, "MAV_CMD_CONDITION_DISTANCE"), (some 115, "MAV_CMD_CONDITION_YAW"),
    (some 159, "MAV_CMD_CONDITION_LAST"), (some 176, "MAV_CMD_DO_SET_MODE"), (some 177, "MAV_CMD_DO_JUMP"),
    (some 178, "MAV_CMD_DO_CHANGE_SPEED"), (some 179, "MAV_CMD_DO_SET_HOME"), (some 180, "MAV_CMD_DO_SET_PARAMETER"),
    (some 181, "MAV_CMD_DO_SET_RELAY"), (some 182, "MAV_CMD_DO_REPEAT_RELAY"), (some 183, "MAV_CMD_DO_SET_SERVO"),
    (some 184, "MAV_CMD_DO_REPEAT_SERVO"), (some 185, "MAV_CMD_DO_FLIGHTTERMINATION"),
    (some 189, "MAV_CMD_DO_LAND_START"), (some 190, "MAV_CMD_DO_RALLY_LAND"), (some 191, "MAV_CMD_DO_GO_AROUND"),
    (some 200, "MAV_CMD_DO_CONTROL_VIDEO"), (some 201, "MAV_CMD_DO_SET_ROI"),
    (some 202, "MAV_CMD_DO_DIGICAM_CONFIGURE"), (some 203, "MAV_CMD_DO_DIGICAM_CONTROL"),
    (some 204, "MAV_CMD_DO_MOUNT_CONFIGURE"), (some 205, "MAV_CMD_DO_MOUNT_CONTROL"),
    (some 206, "MAV_CMD_DO_SET_CAM_TRIGG_DIST"), (some 207, "MAV_CMD_DO_FENCE_ENABLE"),
    (some 208, "MAV_CMD_DO_PARACHUTE"), (some 210, "MAV_CMD_DO_INVERTED_FLIGHT"),
    (some 220, "MAV_CMD_DO_MOUNT_CONTROL_QUAT"), (some 221, "MAV_CMD_DO_GUIDED_MASTER"),
    (some 222, "MAV_CMD_DO_GUIDED_LIMITS"), (some 240, "MAV_CMD_DO_LAST"),
    (some 241, "MAV_CMD_PREFLIGHT_CALIBRATION"), (some 242, "MAV_CMD_PREFLIGHT_SET_SENSOR_OFFSETS"),
    (some 243, "MAV_CMD_PREFLIGHT_UAVCAN"), (some 245, "MAV_CMD_PREFLIGHT_STORAGE"),
    (some 246, "MAV_CMD_PREFLIGHT_REBOOT_SHUTDOWN"), (some 252, "MAV_CMD_OVERRIDE_GOTO"),
    (some 300, "MAV_CMD_MISSION_START"), (some 400, "MAV_CMD_COMPONENT_ARM_DISARM"),
    (some 410, "MAV_CMD_GET_HOME_POSITION"), (some 500, "MAV_CMD_START_RX_PAIR"),
    (some 510, "MAV_CMD_GET_MESSAGE_INTERVAL"), (some 511, "MAV_CMD_SET_MESSAGE_INTERVAL"),
    (some 520, "MAV_CMD_REQUEST_AUTOPILOT_CAPABILITIES"), (some 2000, "MAV_CMD_IMAGE_START_CAPTURE"),
    (some 2001, "MAV_CMD_IMAGE_STOP_CAPTURE"), (some 2003, "MAV_CMD_DO_TRIGGER_CONTROL"),
    (some 2500, "MAV_CMD_VIDEO_START_CAPTURE"), (some 2501, "MAV_CMD_VIDEO_STOP_CAPTURE"),
    (some 2800, "MAV_CMD_PANORAMA_CREATE"), (some 3000, "MAV_CMD_DO_VTOL_TRANSITION"),
    (some 30001, "MAV_CMD_PAYLOAD_PREPARE_DEPLOY"), (some 30002, "MAV_CMD_PAYLOAD_CONTROL_DEPLOY")]⟩

/-- HC_dialect.xml:1259-1290 -/
def enum16 : XmlEnum := ⟨"MAV_DATA_STREAM",
  [(some 0, "MAV_DATA_STREAM_ALL"), (some 1, "MAV_DATA_STREAM_RAW_SENSORS"),
    (some 2, "MAV_DATA_STREAM_EXTENDED_STATUS"), (some 3, "MAV_DATA_STREAM_RC_CHANNELS"),
    (some 4, "MAV_DATA_STREAM_RAW_CONTROLLER"), (some 6, "MAV_DATA_STREAM_POSITION"),
    (some 10, "MAV_DATA_STREAM_EXTRA1"), (some 11, "MAV_DATA_STREAM_EXTRA2"), (some 12, "MAV_DATA_STREAM_EXTRA3")]⟩

/-- HC_dialect.xml:1291-1310 -/
def enum17 : XmlEnum := ⟨"MAV_ROI",
  [(some 0, "MAV_ROI_NONE"), (some 1, "MAV_ROI_WPNEXT"), (some 2, "MAV_ROI_WPINDEX"), (some 3, "MAV_ROI_LOCATION"),
    (some 4, "MAV_ROI_TARGET")]⟩

/-- HC_dialect.xml:1311-1340 -/
def enum18 : XmlEnum := ⟨"MAV_CMD_ACK",
  [(none, "MAV_CMD_ACK_OK"), (none, "MAV_CMD_ACK_ERR_FAIL"), (none, "MAV_CMD_ACK_ERR_ACCESS_DENIED"),
    (none, "MAV_CMD_ACK_ERR_NOT_SUPPORTED"), (none, "MAV_CMD_ACK_ERR_COORDINATE_FRAME_NOT_SUPPORTED"),
    (none, "MAV_CMD_ACK_ERR_COORDINATES_OUT_OF_RANGE"), (none, "MAV_CMD_ACK_ERR_X_LAT_OUT_OF_RANGE"),
    (none, "MAV_CMD_ACK_ERR_Y_LON_OUT_OF_RANGE"), (none, "MAV_CMD_ACK_ERR_Z_ALT_OUT_OF_RANGE")]⟩

/-- HC_dialect.xml:1341-1373 -/
def enum19 : XmlEnum := ⟨"MAV_PARAM_TYPE",
  [(some 1, "MAV_PARAM_TYPE_UINT8"), (some 2, "MAV_PARAM_TYPE_INT8"), (some 3, "MAV_PARAM_TYPE_UINT16"),
    (some 4, "MAV_PARAM_TYPE_INT16"), (some 5, "MAV_PARAM_TYPE_UINT32"), (some 6, "MAV_PARAM_TYPE_INT32"),
    (some 7, "MAV_PARAM_TYPE_UINT64"), (some 8, "MAV_PARAM_TYPE_INT64"), (some 9, "MAV_PARAM_TYPE_REAL32"),
    (some 10, "MAV_PARAM_TYPE_REAL64")]⟩

/-- HC_dialect.xml:1374-1391 -/
def enum20 : XmlEnum := ⟨"MAV_RESULT",
  [(some 0, "MAV_RESULT_ACCEPTED"), (some 1, "MAV_RESULT_TEMPORARILY_REJECTED"), (some 2, "MAV_RESULT_DENIED"),
    (some 3, "MAV_RESULT_UNSUPPORTED"), (some 4, "MAV_RESULT_FAILED")]⟩

/-- HC_dialect.xml:1392-1439 -/
def enum21 : XmlEnum := ⟨"MAV_MISSION_RESULT",
  [(some 0, "MAV_MISSION_ACCEPTED"), (some 1, "MAV_MISSION_ERROR"), (some 2, "MAV_MISSION_UNSUPPORTED_FRAME"),
    (some 3, "MAV_MISSION_UNSUPPORTED"), (some 4, "MAV_MISSION_NO_SPACE"), (some 5, "MAV_MISSION_INVALID"),
    (some 6, "MAV_MISSION_INVALID_PARAM1"), (some 7, "MAV_MISSION_INVALID_PARAM2"),
    (some 8, "MAV_MISSION_INVALID_PARAM3"), (some 9, "MAV_MISSION_INVALID_PARAM4"),
    (some 10, "MAV_MISSION_INVALID_PARAM5_X"), (some 11, "MAV_MISSION_INVALID_PARAM6_Y"),
    (some 12, "MAV_MISSION_INVALID_PARAM7"), (some 13, "MAV_MISSION_INVALID_SEQUENCE"),
    (some 14, "MAV_MISSION_DENIED")]⟩

/-- HC_dialect.xml:1440-1466 -/
def enum22 : XmlEnum := ⟨"MAV_SEVERITY",
  [(some 0, "MAV_SEVERITY_EMERGENCY"), (some 1, "MAV_SEVERITY_ALERT"), (some 2, "MAV_SEVERITY_CRITICAL"),
    (some 3, "MAV_SEVERITY_ERROR"), (some 4, "MAV_SEVERITY_WARNING"), (some 5, "MAV_SEVERITY_NOTICE"),
    (some 6, "MAV_SEVERITY_INFO"), (some 7, "MAV_SEVERITY_DEBUG")]⟩

/-- HC_dialect.xml:1467-1487 -/
def enum23 : XmlEnum := ⟨"MAV_POWER_STATUS",
  [(some 1, "MAV_POWER_STATUS_BRICK_VALID"), (some 2, "MAV_POWER_STATUS_SERVO_VALID"),
    (some 4, "MAV_POWER_STATUS_USB_CONNECTED"), (some 8, "MAV_POWER_STATUS_PERIPH_OVERCURRENT"),
    (some 16, "MAV_POWER_STATUS_PERIPH_HIPOWER_OVERCURRENT"), (some 32, "MAV_POWER_STATUS_CHANGED")]⟩

/-- HC_dialect.xml:1488-1505 -/
def enum24 : XmlEnum := ⟨"SERIAL_CONTROL_DEV",
  [(some 0, "SERIAL_CONTROL_DEV_TELEM1"), (some 1, "SERIAL_CONTROL_DEV_TELEM2"), (some 2, "SERIAL_CONTROL_DEV_GPS1"),
    (some 3, "SERIAL_CONTROL_DEV_GPS2"), (some 10, "SERIAL_CONTROL_DEV_SHELL")]⟩

/-- HC_dialect.xml:1506-1523 -/
def enum25 : XmlEnum := ⟨"SERIAL_CONTROL_FLAG",
  [(some 1, "SERIAL_CONTROL_FLAG_REPLY"), (some 2, "SERIAL_CONTROL_FLAG_RESPOND"),
    (some 4, "SERIAL_CONTROL_FLAG_EXCLUSIVE"), (some 8, "SERIAL_CONTROL_FLAG_BLOCKING"),
    (some 16, "SERIAL_CONTROL_FLAG_MULTI")]⟩

/-- HC_dialect.xml:1524-1535 -/
def enum26 : XmlEnum := ⟨"MAV_DISTANCE_SENSOR",
  [(some 0, "MAV_DISTANCE_SENSOR_LASER"), (some 1, "MAV_DISTANCE_SENSOR_ULTRASOUND"),
    (some 2, "MAV_DISTANCE_SENSOR_INFRARED")]⟩

/-- HC_dialect.xml:1536-1655 -/
def enum27 : XmlEnum := ⟨"MAV_SENSOR_ORIENTATION",
  [(some 0, "MAV_SENSOR_ROTATION_NONE"), (some 1, "MAV_SENSOR_ROTATION_YAW_45"),
    (some 2, "MAV_SENSOR_ROTATION_YAW_90"), (some 3, "MAV_SENSOR_ROTATION_YAW_135"),
    (some 4, "MAV_SENSOR_ROTATION_YAW_180"), (some 5, "MAV_SENSOR_ROTATION_YAW_225"),
    (some 6, "MAV_SENSOR_ROTATION_YAW_270"), (some 7, "MAV_SENSOR_ROTATION_YAW_315"),
    (some 8, "MAV_SENSOR_ROTATION_ROLL_180"), (some 9, "MAV_SENSOR_ROTATION_ROLL_180_YAW_45"),
    (some 10, "MAV_SENSOR_ROTATION_ROLL_180_YAW_90"), (some 11, "MAV_SENSOR_ROTATION_ROLL_180_YAW_135"),
    (some 12, "MAV_SENSOR_ROTATION_PITCH_180"), (some 13, "MAV_SENSOR_ROTATION_ROLL_180_YAW_225"),
    (some 14, "MAV_SENSOR_ROTATION_ROLL_180_YAW_270"), (some 15, "MAV_SENSOR_ROTATION_ROLL_180_YAW_315"),
    (some 16, "MAV_SENSOR_ROTATION_ROLL_90"), (some 17, "MAV_SENSOR_ROTATION_ROLL_90_YAW_45"),
    (some 18, "MAV_SENSOR_ROTATION_ROLL_90_YAW_90"), (some 19, "MAV_SENSOR_ROTATION_ROLL_90_YAW_135"),
    (some 20, "MAV_SENSOR_ROTATION_ROLL_270"), (some 21, "MAV_SENSOR_ROTATION_ROLL_270_YAW_45"),
    (some 22, "MAV_SENSOR_ROTATION_ROLL_270_YAW_90"), (some 23, "MAV_SENSOR_ROTATION_ROLL_270_YAW_135"),
    (some 24, "MAV_SENSOR_ROTATION_PITCH_90"), (some 25, "MAV_SENSOR_ROTATION_PITCH_270"),
    (some 26, "MAV_SENSOR_ROTATION_PITCH_180_YAW_90"), (some 27, "MAV_SENSOR_ROTATION_PITCH_180_YAW_270"),
    (some 28, "MAV_SENSOR_ROTATION_ROLL_90_PITCH_90"), (some 29, "MAV_SENSOR_ROTATION_ROLL_180_PITCH_90"),
    (some 30, "MAV_SENSOR_ROTATION_ROLL_270_PITCH_90"), (some 31, "MAV_SENSOR_ROTATION_ROLL_90_PITCH_180"),
    (some 32, "MAV_SENSOR_ROTATION_ROLL_270_PITCH_180"), (some 33, "MAV_SENSOR_ROTATION_ROLL_90_PITCH_270"),
    (some 34, "MAV_SENSOR_ROTATION_ROLL_180_PITCH_270"), (some 35, "MAV_SENSOR_ROTATION_ROLL_270_PITCH_270"),
    (some 36, "MAV_SENSOR_ROTATION_ROLL_90_PITCH_180_YAW_90"), (some 37, "MAV_SENSOR_ROTATION_ROLL_90_YAW_270"),
    (some 38, "MAV_SENSOR_ROTATION_ROLL_315_PITCH_315_YAW_315")]⟩

/-- HC_dialect.xml:1656-1697 -/
def enum28 : XmlEnum := ⟨"MAV_PROTOCOL_CAPABILITY",
  [(some 1, "MAV_PROTOCOL_CAPABILITY_MISSION_FLOAT"), (some 2, "MAV_PROTOCOL_CAPABILITY_PARAM_FLOAT"),
    (some 4, "MAV_PROTOCOL_CAPABILITY_MISSION_INT"), (some 8, "MAV_PROTOCOL_CAPABILITY_COMMAND_INT"),
    (some 16, "MAV_PROTOCOL_CAPABILITY_PARAM_UNION"), (some 32, "MAV_PROTOCOL_CAPABILITY_FTP"),
    (some 64, "MAV_PROTOCOL_CAPABILITY_SET_ATTITUDE_TARGET"),
    (some 128, "MAV_PROTOCOL_CAPABILITY_SET_POSITION_TARGET_LOCAL_NED"),
    (some 256, "MAV_PROTOCOL_CAPABILITY_SET_POSITION_TARGET_GLOBAL_INT"),
    (some 512, "MAV_PROTOCOL_CAPABILITY_TERRAIN"), (some 1024, "MAV_PROTOCOL_CAPABILITY_SET_ACTUATOR_TARGET"),
    (some 2048, "MAV_PROTOCOL_CAPABILITY_FLIGHT_TERMINATION"),
    (some 4096, "MAV_PROTOCOL_CAPABILITY_COMPASS_CALIBRATION")]⟩

/-- HC_dialect.xml:1698-1715 -/
def enum29 : XmlEnum := ⟨"MAV_ESTIMATOR_TYPE",
  [(some 1, "MAV_ESTIMATOR_TYPE_NAIVE"), (some 2, "MAV_ESTIMATOR_TYPE_VISION"), (some 3, "MAV_ESTIMATOR_TYPE_VIO"),
    (some 4, "MAV_ESTIMATOR_TYPE_GPS"), (some 5, "MAV_ESTIMATOR_TYPE_GPS_INS")]⟩

/-- HC_dialect.xml:1716-1733 -/
def enum30 : XmlEnum := ⟨"MAV_BATTERY_TYPE",
  [(some 0, "MAV_BATTERY_TYPE_UNKNOWN"), (some 1, "MAV_BATTERY_TYPE_LIPO"), (some 2, "MAV_BATTERY_TYPE_LIFE"),
    (some 3, "MAV_BATTERY_TYPE_LION"), (some 4, "MAV_BATTERY_TYPE_NIMH")]⟩

/-- HC_dialect.xml:1734-1751 -/
def enum31 : XmlEnum := ⟨"MAV_BATTERY_FUNCTION",
  [(some 0, "MAV_BATTERY_FUNCTION_UNKNOWN"), (some 1, "MAV_BATTERY_FUNCTION_ALL"),
    (some 2, "MAV_BATTERY_FUNCTION_PROPULSION"), (some 3, "MAV_BATTERY_FUNCTION_AVIONICS"),
    (some 4, "MAV_BATTERY_TYPE_PAYLOAD")]⟩

/-- HC_dialect.xml:1752-1769 -/
def enum32 : XmlEnum := ⟨"MAV_VTOL_STATE",
  [(some 0, "MAV_VTOL_STATE_UNDEFINED"), (some 1, "MAV_VTOL_STATE_TRANSITION_TO_FW"),
    (some 2, "MAV_VTOL_STATE_TRANSITION_TO_MC"), (some 3, "MAV_VTOL_STATE_MC"), (some 4, "MAV_VTOL_STATE_FW")]⟩

/-- HC_dialect.xml:1770-1781 -/
def enum33 : XmlEnum := ⟨"MAV_LANDED_STATE",
  [(some 0, "MAV_LANDED_STATE_UNDEFINED"), (some 1, "MAV_LANDED_STATE_ON_GROUND"), (some 2, "MAV_LANDED_STATE_IN_AIR")]⟩

/-- HC_dialect.xml:1782-1790 -/
def enum34 : XmlEnum := ⟨"ADSB_ALTITUDE_TYPE",
  [(some 0, "ADSB_ALTITUDE_TYPE_PRESSURE_QNH"), (some 1, "ADSB_ALTITUDE_TYPE_GEOMETRIC")]⟩

/-- HC_dialect.xml:1791-1813 -/
def enum35 : XmlEnum := ⟨"ADSB_EMITTER_TYPE",
  [(some 0, "ADSB_EMITTER_TYPE_NO_INFO"), (some 1, "ADSB_EMITTER_TYPE_LIGHT"), (some 2, "ADSB_EMITTER_TYPE_SMALL"),
    (some 3, "ADSB_EMITTER_TYPE_LARGE"), (some 4, "ADSB_EMITTER_TYPE_HIGH_VORTEX_LARGE"),
    (some 5, "ADSB_EMITTER_TYPE_HEAVY"), (some 6, "ADSB_EMITTER_TYPE_HIGHLY_MANUV"),
    (some 7, "ADSB_EMITTER_TYPE_ROTOCRAFT"), (some 8, "ADSB_EMITTER_TYPE_UNASSIGNED"),
    (some 9, "ADSB_EMITTER_TYPE_GLIDER"), (some 10, "ADSB_EMITTER_TYPE_LIGHTER_AIR"),
    (some 11, "ADSB_EMITTER_TYPE_PARACHUTE"), (some 12, "ADSB_EMITTER_TYPE_ULTRA_LIGHT"),
    (some 13, "ADSB_EMITTER_TYPE_UNASSIGNED2"), (some 14, "ADSB_EMITTER_TYPE_UAV"),
    (some 15, "ADSB_EMITTER_TYPE_SPACE"), (some 16, "ADSB_EMITTER_TYPE_UNASSGINED3"),
    (some 17, "ADSB_EMITTER_TYPE_EMERGENCY_SURFACE"), (some 18, "ADSB_EMITTER_TYPE_SERVICE_SURFACE"),
    (some 19, "ADSB_EMITTER_TYPE_POINT_OBSTACLE")]⟩

/-- HC_dialect.xml:1814-1823 -/
def enum36 : XmlEnum := ⟨"ADSB_FLAGS",
  [(some 1, "ADSB_FLAGS_VALID_COORDS"), (some 2, "ADSB_FLAGS_VALID_ALTITUDE"), (some 4, "ADSB_FLAGS_VALID_HEADING"),
    (some 8, "ADSB_FLAGS_VALID_VELOCITY"), (some 16, "ADSB_FLAGS_VALID_CALLSIGN"),
    (some 32, "ADSB_FLAGS_VALID_SQUAWK"), (some 64, "ADSB_FLAGS_SIMULATED")]⟩

/-- The enumerations of HC_dialect.xml. -/
def enums : List XmlEnum :=
  [enum0, enum1, enum2, enum3, enum4, enum5, enum6, enum7, enum8, enum9, enum10, enum11, enum12, enum13, enum14,
    enum15, enum16, enum17, enum18, enum19, enum20, enum21, enum22, enum23, enum24, enum25, enum26, enum27, enum28,
    enum29, enum30, enum31, enum32, enum33, enum34, enum35, enum36]

/-- HC_dialect.py:270-309 -/
def py0 : PyEnum := ⟨"MAV_AUTOPILOT",
  [(0, "MAV_AUTOPILOT_GENERIC"), (1, "MAV_AUTOPILOT_RESERVED"), (2, "MAV_AUTOPILOT_SLUGS"),
    (3, "MAV_AUTOPILOT_ARDUPILOTMEGA"), (4, "MAV_AUTOPILOT_OPENPILOT"), (5, "MAV_AUTOPILOT_GENERIC_WAYPOINTS_ONLY"),
    (6, "MAV_AUTOPILOT_GENERIC_WAYPOINTS_AND_SIMPLE_NAVIGATION_ONLY"), (7, "MAV_AUTOPILOT_GENERIC_MISSION_FULL"),
    (8, "MAV_AUTOPILOT_INVALID"), (9, "MAV_AUTOPILOT_PPZ"), (10, "MAV_AUTOPILOT_UDB"), (11, "MAV_AUTOPILOT_FP"),
    (12, "MAV_AUTOPILOT_PX4"), (13, "MAV_AUTOPILOT_SMACCMPILOT"), (14, "MAV_AUTOPILOT_AUTOQUAD"),
    (15, "MAV_AUTOPILOT_ARMAZILA"), (16, "MAV_AUTOPILOT_AEROB"), (17, "MAV_AUTOPILOT_ASLUAV"),
    (18, "MAV_AUTOPILOT_ENUM_END")]⟩

/-- HC_dialect.py:312-372 -/
def py1 : PyEnum := ⟨"MAV_TYPE",
  [(0, "MAV_TYPE_GENERIC"), (1, "MAV_TYPE_FIXED_WING"), (2, "MAV_TYPE_QUADROTOR"), (3, "MAV_TYPE_COAXIAL"),
    (4, "MAV_TYPE_HELICOPTER"), (5, "MAV_TYPE_ANTENNA_TRACKER"), (6, "MAV_TYPE_GCS"), (7, "MAV_TYPE_AIRSHIP"),
    (8, "MAV_TYPE_FREE_BALLOON"), (9, "MAV_TYPE_ROCKET"), (10, "MAV_TYPE_GROUND_ROVER"),
    (11, "MAV_TYPE_SURFACE_BOAT"), (12, "MAV_TYPE_SUBMARINE"), (13, "MAV_TYPE_HEXAROTOR"), (14, "MAV_TYPE_OCTOROTOR"),
    (15, "MAV_TYPE_TRICOPTER"), (16, "MAV_TYPE_FLAPPING_WING"), (17, "MAV_TYPE_KITE"),
    (18, "MAV_TYPE_ONBOARD_CONTROLLER"), (19, "MAV_TYPE_VTOL_DUOROTOR"), (20, "MAV_TYPE_VTOL_QUADROTOR"),
    (21, "MAV_TYPE_VTOL_TILTROTOR"), (22, "MAV_TYPE_VTOL_RESERVED2"), (23, "MAV_TYPE_VTOL_RESERVED3"),
    (24, "MAV_TYPE_VTOL_RESERVED4"), (25, "MAV_TYPE_VTOL_RESERVED5"), (26, "MAV_TYPE_GIMBAL"), (27, "MAV_TYPE_ADSB"),
    (28, "MAV_TYPE_ENUM_END")]⟩

/-- HC_dialect.py:375-387 -/
def py2 : PyEnum := ⟨"FIRMWARE_VERSION_TYPE",
  [(0, "FIRMWARE_VERSION_TYPE_DEV"), (64, "FIRMWARE_VERSION_TYPE_ALPHA"), (128, "FIRMWARE_VERSION_TYPE_BETA"),
    (192, "FIRMWARE_VERSION_TYPE_RC"), (255, "FIRMWARE_VERSION_TYPE_OFFICIAL"),
    (256, "FIRMWARE_VERSION_TYPE_ENUM_END")]⟩

/-- HC_dialect.py:390-417 -/
def py3 : PyEnum := ⟨"MAV_MODE_FLAG",
  [(1, "MAV_MODE_FLAG_CUSTOM_MODE_ENABLED"), (2, "MAV_MODE_FLAG_TEST_ENABLED"), (4, "MAV_MODE_FLAG_AUTO_ENABLED"),
    (8, "MAV_MODE_FLAG_GUIDED_ENABLED"), (16, "MAV_MODE_FLAG_STABILIZE_ENABLED"), (32, "MAV_MODE_FLAG_HIL_ENABLED"),
    (64, "MAV_MODE_FLAG_MANUAL_INPUT_ENABLED"), (128, "MAV_MODE_FLAG_SAFETY_ARMED"), (129, "MAV_MODE_FLAG_ENUM_END")]⟩

/-- HC_dialect.py:420-438 -/
def py4 : PyEnum := ⟨"MAV_MODE_FLAG_DECODE_POSITION",
  [(1, "MAV_MODE_FLAG_DECODE_POSITION_CUSTOM_MODE"), (2, "MAV_MODE_FLAG_DECODE_POSITION_TEST"),
    (4, "MAV_MODE_FLAG_DECODE_POSITION_AUTO"), (8, "MAV_MODE_FLAG_DECODE_POSITION_GUIDED"),
    (16, "MAV_MODE_FLAG_DECODE_POSITION_STABILIZE"), (32, "MAV_MODE_FLAG_DECODE_POSITION_HIL"),
    (64, "MAV_MODE_FLAG_DECODE_POSITION_MANUAL"), (128, "MAV_MODE_FLAG_DECODE_POSITION_SAFETY"),
    (129, "MAV_MODE_FLAG_DECODE_POSITION_ENUM_END")]⟩

/-- HC_dialect.py:441-451 -/
def py5 : PyEnum := ⟨"MAV_GOTO",
  [(0, "MAV_GOTO_DO_HOLD"), (1, "MAV_GOTO_DO_CONTINUE"), (2, "MAV_GOTO_HOLD_AT_CURRENT_POSITION"),
    (3, "MAV_GOTO_HOLD_AT_SPECIFIED_POSITION"), (4, "MAV_GOTO_ENUM_END")]⟩

/-- HC_dialect.py:454-490 -/
def py6 : PyEnum := ⟨"MAV_MODE",
  [(0, "MAV_MODE_PREFLIGHT"), (32, "MAV_MODE_STOP"), (64, "MAV_MODE_MANUAL_DISARMED"), (66, "MAV_MODE_TEST_DISARMED"),
    (80, "MAV_MODE_STABILIZE_DISARMED"), (88, "MAV_MODE_GUIDED_DISARMED"), (92, "MAV_MODE_AUTO_DISARMED"),
    (192, "MAV_MODE_MANUAL_ARMED"), (194, "MAV_MODE_TEST_ARMED"), (208, "MAV_MODE_STABILIZE_ARMED"),
    (216, "MAV_MODE_GUIDED_ARMED"), (220, "MAV_MODE_AUTO_ARMED"), (221, "MAV_MODE_ENUM_END")]⟩

/-- HC_dialect.py:493-513 -/
def py7 : PyEnum := ⟨"MAV_STATE",
  [(0, "MAV_STATE_UNINIT"), (1, "MAV_STATE_BOOT"), (2, "MAV_STATE_CALIBRATING"), (3, "MAV_STATE_STANDBY"),
    (4, "MAV_STATE_ACTIVE"), (5, "MAV_STATE_CRITICAL"), (6, "MAV_STATE_EMERGENCY"), (7, "MAV_STATE_POWEROFF"),
    (8, "MAV_STATE_ENUM_END")]⟩

/-- HC_dialect.py:516-576 -/
def py8 : PyEnum := ⟨"MAV_COMPONENT",
  [(0, "MAV_COMP_ID_ALL"), (100, "MAV_COMP_ID_CAMERA"), (140, "MAV_COMP_ID_SERVO1"), (141, "MAV_COMP_ID_SERVO2"),
    (142, "MAV_COMP_ID_SERVO3"), (143, "MAV_COMP_ID_SERVO4"), (144, "MAV_COMP_ID_SERVO5"),
    (145, "MAV_COMP_ID_SERVO6"), (146, "MAV_COMP_ID_SERVO7"), (147, "MAV_COMP_ID_SERVO8"),
    (148, "MAV_COMP_ID_SERVO9"), (149, "MAV_COMP_ID_SERVO10"), (150, "MAV_COMP_ID_SERVO11"),
    (151, "MAV_COMP_ID_SERVO12"), (152, "MAV_COMP_ID_SERVO13"), (153, "MAV_COMP_ID_SERVO14"),
    (154, "MAV_COMP_ID_GIMBAL"), (155, "MAV_COMP_ID_LOG"), (156, "MAV_COMP_ID_ADSB"), (180, "MAV_COMP_ID_MAPPER"),
    (190, "MAV_COMP_ID_MISSIONPLANNER"), (195, "MAV_COMP_ID_PATHPLANNER"), (200, "MAV_COMP_ID_IMU"),
    (201, "MAV_COMP_ID_IMU_2"), (202, "MAV_COMP_ID_IMU_3"), (220, "MAV_COMP_ID_GPS"), (240, "MAV_COMP_ID_UDP_BRIDGE"),
    (241, "MAV_COMP_ID_UART_BRIDGE"), (250, "MAV_COMP_ID_SYSTEM_CONTROL"), (251, "MAV_COMPONENT_ENUM_END")]⟩

/-- HC_dialect.py:579-627 -/
def py9 : PyEnum := ⟨"MAV_SYS_STATUS_SENSOR",
  [(1, "MAV_SYS_STATUS_SENSOR_3D_GYRO"), (2, "MAV_SYS_STATUS_SENSOR_3D_ACCEL"), (4, "MAV_SYS_STATUS_SENSOR_3D_MAG"),
    (8, "MAV_SYS_STATUS_SENSOR_ABSOLUTE_PRESSURE"), (16, "MAV_SYS_STATUS_SENSOR_DIFFERENTIAL_PRESSURE"),
    (32, "MAV_SYS_STATUS_SENSOR_GPS"), (64, "MAV_SYS_STATUS_SENSOR_OPTICAL_FLOW"),
    (128, "MAV_SYS_STATUS_SENSOR_VISION_POSITION"), (256, "MAV_SYS_STATUS_SENSOR_LASER_POSITION"),
    (512, "MAV_SYS_STATUS_SENSOR_EXTERNAL_GROUND_TRUTH"), (1024, "MAV_SYS_STATUS_SENSOR_ANGULAR_RATE_CONTROL"),
    (2048, "MAV_SYS_STATUS_SENSOR_ATTITUDE_STABILIZATION"), (4096, "MAV_SYS_STATUS_SENSOR_YAW_POSITION"),
    (8192, "MAV_SYS_STATUS_SENSOR_Z_ALTITUDE_CONTROL"), (16384, "MAV_SYS_STATUS_SENSOR_XY_POSITION_CONTROL"),
    (32768, "MAV_SYS_STATUS_SENSOR_MOTOR_OUTPUTS"), (65536, "MAV_SYS_STATUS_SENSOR_RC_RECEIVER"),
    (131072, "MAV_SYS_STATUS_SENSOR_3D_GYRO2"), (262144, "MAV_SYS_STATUS_SENSOR_3D_ACCEL2"),
    (524288, "MAV_SYS_STATUS_SENSOR_3D_MAG2"), (1048576, "MAV_SYS_STATUS_GEOFENCE"), (2097152, "MAV_SYS_STATUS_AHRS"),
    (4194304, "MAV_SYS_STATUS_TERRAIN"), (4194305, "MAV_SYS_STATUS_SENSOR_ENUM_END")]⟩

/-- HC_dialect.py:630-697 -/
def py10 : PyEnum := ⟨"MAV_FRAME",
  [(0, "MAV_FRAME_GLOBAL"), (1, "MAV_FRAME_LOCAL_NED"), (2, "MAV_FRAME_MISSION"),
    (3, "MAV_FRAME_GLOBAL_RELATIVE_ALT"), (4, "MAV_FRAME_LOCAL_ENU"), (5, "MAV_FRAME_GLOBAL_INT"),
    (6, "MAV_FRAME_GLOBAL_RELATIVE_ALT_INT"), (7, "MAV_FRAME_LOCAL_OFFSET_NED"), (8, "MAV_FRAME_BODY_NED"),
    (9, "MAV_FRAME_BODY_OFFSET_NED"), (10, "MAV_FRAME_GLOBAL_TERRAIN_ALT"), (11, "MAV_FRAME_GLOBAL_TERRAIN_ALT_INT"),
    (12, "MAV_FRAME_HCMISSION"), (13, "MAV_FRAME_ENUM_END")]⟩

/-- HC_dialect.py:700-714 -/
def py11 : PyEnum := ⟨"MAVLINK_DATA_STREAM_TYPE",
  [(1, "MAVLINK_DATA_STREAM_IMG_JPEG"), (2, "MAVLINK_DATA_STREAM_IMG_BMP"), (3, "MAVLINK_DATA_STREAM_IMG_RAW8U"),
    (4, "MAVLINK_DATA_STREAM_IMG_RAW32U"), (5, "MAVLINK_DATA_STREAM_IMG_PGM"), (6, "MAVLINK_DATA_STREAM_IMG_PNG"),
    (7, "MAVLINK_DATA_STREAM_TYPE_ENUM_END")]⟩

/-- HC_dialect.py:717-728 -/
def py12 : PyEnum := ⟨"FENCE_ACTION",
  [(0, "FENCE_ACTION_NONE"), (1, "FENCE_ACTION_GUIDED"), (2, "FENCE_ACTION_REPORT"),
    (3, "FENCE_ACTION_GUIDED_THR_PASS"), (4, "FENCE_ACTION_ENUM_END")]⟩

/-- HC_dialect.py:731-741 -/
def py13 : PyEnum := ⟨"FENCE_BREACH",
  [(0, "FENCE_BREACH_NONE"), (1, "FENCE_BREACH_MINALT"), (2, "FENCE_BREACH_MAXALT"), (3, "FENCE_BREACH_BOUNDARY"),
    (4, "FENCE_BREACH_ENUM_END")]⟩

/-- HC_dialect.py:744-759 -/
def py14 : PyEnum := ⟨"MAV_MOUNT_MODE",
  [(0, "MAV_MOUNT_MODE_RETRACT"), (1, "MAV_MOUNT_MODE_NEUTRAL"), (2, "MAV_MOUNT_MODE_MAVLINK_TARGETING"),
    (3, "MAV_MOUNT_MODE_RC_TARGETING"), (4, "MAV_MOUNT_MODE_GPS_POINT"), (5, "MAV_MOUNT_MODE_ENUM_END")]⟩

/-- HC_dialect.py:762-1472 -/
def py15 : PyEnum := ⟨"MAV_CMD",
  [(16, "MAV_CMD_NAV_WAYPOINT"), (17, "MAV_CMD_NAV_LOITER_UNLIM"), (18, "MAV_CMD_NAV_LOITER_TURNS"),
    (19, "MAV_CMD_NAV_LOITER_TIME"), (20, "MAV_CMD_NAV_RETURN_TO_LAUNCH"), (21, "MAV_CMD_NAV_LAND"),
    (22, "MAV_CMD_NAV_SAFETY_REGION"), (23, "MAV_CMD_NAV_LAND_LOCAL"), (24, "MAV_CMD_NAV_TAKEOFF_LOCAL"),
    (25, "MAV_CMD_NAV_FOLLOW"), (30, "MAV_CMD_NAV_CONTINUE_AND_CHANGE_ALT"), (31, "MAV_CMD_NAV_LOITER_TO_ALT"),
    (80, "MAV_CMD_NAV_ROI"), (81, "MAV_CMD_NAV_PATHPLANNING"), (82, "MAV_CMD_NAV_SPLINE_WAYPOINT"),
    (84, "MAV_CMD_NAV_VTOL_TAKEOFF"), (85, "MAV_CMD_NAV_VTOL_LAND"), (92, "MAV_CMD_NAV_GUIDED_ENABLE"),
    (95, "MAV_CMD_NAV_LAST"), (112, "MAV_CMD_CONDITION_DELAY"), (113, "MAV_CMD_CONDITION_CHANGE_ALT"),
    (114, "MAV_CMD_CONDITION_DISTANCE"), (115, "MAV_CMD_CONDITION_YAW"), (159, "MAV_CMD_CONDITION_LAST"),
    (176, "MAV_CMD_DO_SET_MODE"), (177, "MAV_CMD_DO_JUMP"), (178, "MAV_CMD_DO_CHANGE_SPEED"),
    (179, "MAV_CMD_DO_SET_HOME"), (180, "MAV_CMD_DO_SET_PARAMETER"), (181, "MAV_CMD_DO_SET_RELAY"),
    (182, "MAV_CMD_DO_REPEAT_RELAY"), (183, "MAV_CMD_DO_SET_SERVO"), (184, "MAV_CMD_DO_REPEAT_SERVO"),
    (185, "MAV_CMD_DO_FLIGHTTERMINATION"), (189, "MAV_CMD_DO_LAND_START"), (190, "MAV_CMD_DO_RALLY_LAND"),
    (191, "MAV_CMD_DO_GO_AROUND"), (200, "MAV_CMD_DO_CONTROL_VIDEO"), (201, "MAV_CMD_DO_SET_ROI"),
    (202, "MAV_CMD_DO_DIGICAM_CONFIGURE"), (203, "MAV_CMD_DO_DIGICAM_CONTROL"), (204, "MAV_CMD_DO_MOUNT_CONFIGURE"),
    (205, "MAV_CMD_DO_MOUNT_CONTROL"), (206, "MAV_CMD_DO_SET_CAM_TRIGG_DIST"), (207, "MAV_CMD_DO_FENCE_ENABLE"),
    (208, "MAV_CMD_DO_PARACHUTE"), (210, "MAV_CMD_DO_INVERTED_FLIGHT"), (220, "MAV_CMD_DO_MOUNT_CONTROL_QUAT"),
    (221, "MAV_CMD_DO_GUIDED_MASTER"), (222, "MAV_CMD_DO_GUIDED_LIMITS"), (240, "MAV_CMD_DO_LAST"),
    (241, "MAV_CMD_PREFLIGHT_CALIBRATION"), (242, "MAV_CMD_PREFLIGHT_SET_SENSOR_OFFSETS"),
    (243, "MAV_CMD_PREFLIGHT_UAVCAN"), (245, "MAV_CMD_PREFLIGHT_STORAGE"), (246, "MAV_CMD_PREFLIGHT_REBOOT_SHUTDOWN"),
    (252, "MAV_CMD_OVERRIDE_GOTO"), (300, "MAV_CMD_MISSION_START"), (400, "MAV_CMD_COMPONENT_ARM_DISARM"),
    (410, "MAV_CMD_GET_HOME_POSITION"), (500, "MAV_CMD_START_RX_PAIR"), (510, "MAV_CMD_GET_MESSAGE_INTERVAL"),
    (511, "MAV_CMD_SET_MESSAGE_INTERVAL"), (520, "MAV_CMD_REQUEST_AUTOPILOT_CAPABILITIES"),
    (2000, "MAV_CMD_IMAGE_START_CAPTURE"), (2001, "MAV_CMD_IMAGE_STOP_CAPTURE"), (2003, "MAV_CMD_DO_TRIGGER_CONTROL"),
    (2500, "MAV_CMD_VIDEO_START_CAPTURE"), (2501, "MAV_CMD_VIDEO_STOP_CAPTURE"), (2800, "MAV_CMD_PANORAMA_CREATE"),
    (3000, "MAV_CMD_DO_VTOL_TRANSITION"), (30001, "MAV_CMD_PAYLOAD_PREPARE_DEPLOY"),
    (30002, "MAV_CMD_PAYLOAD_CONTROL_DEPLOY"), (30003, "MAV_CMD_ENUM_END")]⟩

/-- HC_dialect.py:1475-1496 -/
def py16 : PyEnum := ⟨"MAV_DATA_STREAM",
  [(0, "MAV_DATA_STREAM_ALL"), (1, "MAV_DATA_STREAM_RAW_SENSORS"), (2, "MAV_DATA_STREAM_EXTENDED_STATUS"),
    (3, "MAV_DATA_STREAM_RC_CHANNELS"), (4, "MAV_DATA_STREAM_RAW_CONTROLLER"), (6, "MAV_DATA_STREAM_POSITION"),
    (10, "MAV_DATA_STREAM_EXTRA1"), (11, "MAV_DATA_STREAM_EXTRA2"), (12, "MAV_DATA_STREAM_EXTRA3"),
    (13, "MAV_DATA_STREAM_ENUM_END")]⟩

/-- HC_dialect.py:1499-1511 -/
def py17 : PyEnum := ⟨"MAV_ROI",
  [(0, "MAV_ROI_NONE"), (1, "MAV_ROI_WPNEXT"), (2, "MAV_ROI_WPINDEX"), (3, "MAV_ROI_LOCATION"), (4, "MAV_ROI_TARGET"),
    (5, "MAV_ROI_ENUM_END")]⟩

/-- HC_dialect.py:1514-1603 -/
def py18 : PyEnum := ⟨"MAV_CMD_ACK",
  [(1, "MAV_CMD_ACK_OK"), (2, "MAV_CMD_ACK_ERR_FAIL"), (3, "MAV_CMD_ACK_ERR_ACCESS_DENIED"),
    (4, "MAV_CMD_ACK_ERR_NOT_SUPPORTED"), (5, "MAV_CMD_ACK_ERR_COORDINATE_FRAME_NOT_SUPPORTED"),
    (6, "MAV_CMD_ACK_ERR_COORDINATES_OUT_OF_RANGE"), (7, "MAV_CMD_ACK_ERR_X_LAT_OUT_OF_RANGE"),
    (8, "MAV_CMD_ACK_ERR_Y_LON_OUT_OF_RANGE"), (9, "MAV_CMD_ACK_ERR_Z_ALT_OUT_OF_RANGE"), (10, "MAV_CMD_ACK_ENUM_END")]⟩

/-- HC_dialect.py:1606-1628 -/
def py19 : PyEnum := ⟨"MAV_PARAM_TYPE",
  [(1, "MAV_PARAM_TYPE_UINT8"), (2, "MAV_PARAM_TYPE_INT8"), (3, "MAV_PARAM_TYPE_UINT16"), (4, "MAV_PARAM_TYPE_INT16"),
    (5, "MAV_PARAM_TYPE_UINT32"), (6, "MAV_PARAM_TYPE_INT32"), (7, "MAV_PARAM_TYPE_UINT64"),
    (8, "MAV_PARAM_TYPE_INT64"), (9, "MAV_PARAM_TYPE_REAL32"), (10, "MAV_PARAM_TYPE_REAL64"),
    (11, "MAV_PARAM_TYPE_ENUM_END")]⟩

/-- HC_dialect.py:1631-1643 -/
def py20 : PyEnum := ⟨"MAV_RESULT",
  [(0, "MAV_RESULT_ACCEPTED"), (1, "MAV_RESULT_TEMPORARILY_REJECTED"), (2, "MAV_RESULT_DENIED"),
    (3, "MAV_RESULT_UNSUPPORTED"), (4, "MAV_RESULT_FAILED"), (5, "MAV_RESULT_ENUM_END")]⟩

/-- HC_dialect.py:1646-1678 -/
def py21 : PyEnum := ⟨"MAV_MISSION_RESULT",
  [(0, "MAV_MISSION_ACCEPTED"), (1, "MAV_MISSION_ERROR"), (2, "MAV_MISSION_UNSUPPORTED_FRAME"),
    (3, "MAV_MISSION_UNSUPPORTED"), (4, "MAV_MISSION_NO_SPACE"), (5, "MAV_MISSION_INVALID"),
    (6, "MAV_MISSION_INVALID_PARAM1"), (7, "MAV_MISSION_INVALID_PARAM2"), (8, "MAV_MISSION_INVALID_PARAM3"),
    (9, "MAV_MISSION_INVALID_PARAM4"), (10, "MAV_MISSION_INVALID_PARAM5_X"), (11, "MAV_MISSION_INVALID_PARAM6_Y"),
    (12, "MAV_MISSION_INVALID_PARAM7"), (13, "MAV_MISSION_INVALID_SEQUENCE"), (14, "MAV_MISSION_DENIED"),
    (15, "MAV_MISSION_RESULT_ENUM_END")]⟩

/-- HC_dialect.py:1681-1706 -/
def py22 : PyEnum := ⟨"MAV_SEVERITY",
  [(0, "MAV_SEVERITY_EMERGENCY"), (1, "MAV_SEVERITY_ALERT"), (2, "MAV_SEVERITY_CRITICAL"), (3, "MAV_SEVERITY_ERROR"),
    (4, "MAV_SEVERITY_WARNING"), (5, "MAV_SEVERITY_NOTICE"), (6, "MAV_SEVERITY_INFO"), (7, "MAV_SEVERITY_DEBUG"),
    (8, "MAV_SEVERITY_ENUM_END")]⟩

/-- HC_dialect.py:1709-1723 -/
def py23 : PyEnum := ⟨"MAV_POWER_STATUS",
  [(1, "MAV_POWER_STATUS_BRICK_VALID"), (2, "MAV_POWER_STATUS_SERVO_VALID"), (4, "MAV_POWER_STATUS_USB_CONNECTED"),
    (8, "MAV_POWER_STATUS_PERIPH_OVERCURRENT"), (16, "MAV_POWER_STATUS_PERIPH_HIPOWER_OVERCURRENT"),
    (32, "MAV_POWER_STATUS_CHANGED"), (33, "MAV_POWER_STATUS_ENUM_END")]⟩

/-- HC_dialect.py:1726-1738 -/
def py24 : PyEnum := ⟨"SERIAL_CONTROL_DEV",
  [(0, "SERIAL_CONTROL_DEV_TELEM1"), (1, "SERIAL_CONTROL_DEV_TELEM2"), (2, "SERIAL_CONTROL_DEV_GPS1"),
    (3, "SERIAL_CONTROL_DEV_GPS2"), (10, "SERIAL_CONTROL_DEV_SHELL"), (11, "SERIAL_CONTROL_DEV_ENUM_END")]⟩

/-- HC_dialect.py:1741-1758 -/
def py25 : PyEnum := ⟨"SERIAL_CONTROL_FLAG",
  [(1, "SERIAL_CONTROL_FLAG_REPLY"), (2, "SERIAL_CONTROL_FLAG_RESPOND"), (4, "SERIAL_CONTROL_FLAG_EXCLUSIVE"),
    (8, "SERIAL_CONTROL_FLAG_BLOCKING"), (16, "SERIAL_CONTROL_FLAG_MULTI"), (17, "SERIAL_CONTROL_FLAG_ENUM_END")]⟩

/-- HC_dialect.py:1761-1769 -/
def py26 : PyEnum := ⟨"MAV_DISTANCE_SENSOR",
  [(0, "MAV_DISTANCE_SENSOR_LASER"), (1, "MAV_DISTANCE_SENSOR_ULTRASOUND"), (2, "MAV_DISTANCE_SENSOR_INFRARED"),
    (3, "MAV_DISTANCE_SENSOR_ENUM_END")]⟩

/-- HC_dialect.py:1772-1852 -/
def py27 : PyEnum := ⟨"MAV_SENSOR_ORIENTATION",
  [(0, "MAV_SENSOR_ROTATION_NONE"), (1, "MAV_SENSOR_ROTATION_YAW_45"), (2, "MAV_SENSOR_ROTATION_YAW_90"),
    (3, "MAV_SENSOR_ROTATION_YAW_135"), (4, "MAV_SENSOR_ROTATION_YAW_180"), (5, "MAV_SENSOR_ROTATION_YAW_225"),
    (6, "MAV_SENSOR_ROTATION_YAW_270"), (7, "MAV_SENSOR_ROTATION_YAW_315"), (8, "MAV_SENSOR_ROTATION_ROLL_180"),
    (9, "MAV_SENSOR_ROTATION_ROLL_180_YAW_45"), (10, "MAV_SENSOR_ROTATION_ROLL_180_YAW_90"),
    (11, "MAV_SENSOR_ROTATION_ROLL_180_YAW_135"), (12, "MAV_SENSOR_ROTATION_PITCH_180"),
    (13, "MAV_SENSOR_ROTATION_ROLL_180_YAW_225"), (14, "MAV_SENSOR_ROTATION_ROLL_180_YAW_270"),
    (15, "MAV_SENSOR_ROTATION_ROLL_180_YAW_315"), (16, "MAV_SENSOR_ROTATION_ROLL_90"),
    (17, "MAV_SENSOR_ROTATION_ROLL_90_YAW_45"), (18, "MAV_SENSOR_ROTATION_ROLL_90_YAW_90"),
    (19, "MAV_SENSOR_ROTATION_ROLL_90_YAW_135"), (20, "MAV_SENSOR_ROTATION_ROLL_270"),
    (21, "MAV_SENSOR_ROTATION_ROLL_270_YAW_45"), (22, "MAV_SENSOR_ROTATION_ROLL_270_YAW_90"),
    (23, "MAV_SENSOR_ROTATION_ROLL_270_YAW_135"), (24, "MAV_SENSOR_ROTATION_PITCH_90"),
    (25, "MAV_SENSOR_ROTATION_PITCH_270"), (26, "MAV_SENSOR_ROTATION_PITCH_180_YAW_90"),
    (27, "MAV_SENSOR_ROTATION_PITCH_180_YAW_270"), (28, "MAV_SENSOR_ROTATION_ROLL_90_PITCH_90"),
    (29, "MAV_SENSOR_ROTATION_ROLL_180_PITCH_90"), (30, "MAV_SENSOR_ROTATION_ROLL_270_PITCH_90"),
    (31, "MAV_SENSOR_ROTATION_ROLL_90_PITCH_180"), (32, "MAV_SENSOR_ROTATION_ROLL_270_PITCH_180"),
    (33, "MAV_SENSOR_ROTATION_ROLL_90_PITCH_270"), (34, "MAV_SENSOR_ROTATION_ROLL_180_PITCH_270"),
    (35, "MAV_SENSOR_ROTATION_ROLL_270_PITCH_270"), (36, "MAV_SENSOR_ROTATION_ROLL_90_PITCH_180_YAW_90"),
    (37, "MAV_SENSOR_ROTATION_ROLL_90_YAW_270"), (38, "MAV_SENSOR_ROTATION_ROLL_315_PITCH_315_YAW_315"),
    (39, "MAV_SENSOR_ORIENTATION_ENUM_END")]⟩

/-- HC_dialect.py:1855-1885 -/
def py28 : PyEnum := ⟨"MAV_PROTOCOL_CAPABILITY",
  [(1, "MAV_PROTOCOL_CAPABILITY_MISSION_FLOAT"), (2, "MAV_PROTOCOL_CAPABILITY_PARAM_FLOAT"),
    (4, "MAV_PROTOCOL_CAPABILITY_MISSION_INT"), (8, "MAV_PROTOCOL_CAPABILITY_COMMAND_INT"),
    (16, "MAV_PROTOCOL_CAPABILITY_PARAM_UNION"), (32, "MAV_PROTOCOL_CAPABILITY_FTP"),
    (64, "MAV_PROTOCOL_CAPABILITY_SET_ATTITUDE_TARGET"),
    (128, "MAV_PROTOCOL_CAPABILITY_SET_POSITION_TARGET_LOCAL_NED"),
    (256, "MAV_PROTOCOL_CAPABILITY_SET_POSITION_TARGET_GLOBAL_INT"), (512, "MAV_PROTOCOL_CAPABILITY_TERRAIN"),
    (1024, "MAV_PROTOCOL_CAPABILITY_SET_ACTUATOR_TARGET"), (2048, "MAV_PROTOCOL_CAPABILITY_FLIGHT_TERMINATION"),
    (4096, "MAV_PROTOCOL_CAPABILITY_COMPASS_CALIBRATION"), (4097, "MAV_PROTOCOL_CAPABILITY_ENUM_END")]⟩

/-- HC_dialect.py:1888-1900 -/
def py29 : PyEnum := ⟨"MAV_ESTIMATOR_TYPE",
  [(1, "MAV_ESTIMATOR_TYPE_NAIVE"), (2, "MAV_ESTIMATOR_TYPE_VISION"), (3, "MAV_ESTIMATOR_TYPE_VIO"),
    (4, "MAV_ESTIMATOR_TYPE_GPS"), (5, "MAV_ESTIMATOR_TYPE_GPS_INS"), (6, "MAV_ESTIMATOR_TYPE_ENUM_END")]⟩

/-- HC_dialect.py:1903-1915 -/
def py30 : PyEnum := ⟨"MAV_BATTERY_TYPE",
  [(0, "MAV_BATTERY_TYPE_UNKNOWN"), (1, "MAV_BATTERY_TYPE_LIPO"), (2, "MAV_BATTERY_TYPE_LIFE"),
    (3, "MAV_BATTERY_TYPE_LION"), (4, "MAV_BATTERY_TYPE_NIMH"), (5, "MAV_BATTERY_TYPE_ENUM_END")]⟩

/-- HC_dialect.py:1918-1930 -/
def py31 : PyEnum := ⟨"MAV_BATTERY_FUNCTION",
  [(0, "MAV_BATTERY_FUNCTION_UNKNOWN"), (1, "MAV_BATTERY_FUNCTION_ALL"), (2, "MAV_BATTERY_FUNCTION_PROPULSION"),
    (3, "MAV_BATTERY_FUNCTION_AVIONICS"), (4, "MAV_BATTERY_TYPE_PAYLOAD"), (5, "MAV_BATTERY_FUNCTION_ENUM_END")]⟩

/-- HC_dialect.py:1933-1945 -/
def py32 : PyEnum := ⟨"MAV_VTOL_STATE",
  [(0, "MAV_VTOL_STATE_UNDEFINED"), (1, "MAV_VTOL_STATE_TRANSITION_TO_FW"), (2, "MAV_VTOL_STATE_TRANSITION_TO_MC"),
    (3, "MAV_VTOL_STATE_MC"), (4, "MAV_VTOL_STATE_FW"), (5, "MAV_VTOL_STATE_ENUM_END")]⟩

/-- HC_dialect.py:1948-1956 -/
def py33 : PyEnum := ⟨"MAV_LANDED_STATE",
  [(0, "MAV_LANDED_STATE_UNDEFINED"), (1, "MAV_LANDED_STATE_ON_GROUND"), (2, "MAV_LANDED_STATE_IN_AIR"),
    (3, "MAV_LANDED_STATE_ENUM_END")]⟩

/-- HC_dialect.py:1959-1965 -/
def py34 : PyEnum := ⟨"ADSB_ALTITUDE_TYPE",
  [(0, "ADSB_ALTITUDE_TYPE_PRESSURE_QNH"), (1, "ADSB_ALTITUDE_TYPE_GEOMETRIC"), (2, "ADSB_ALTITUDE_TYPE_ENUM_END")]⟩

/-- HC_dialect.py:1968-2010 -/
def py35 : PyEnum := ⟨"ADSB_EMITTER_TYPE",
  [(0, "ADSB_EMITTER_TYPE_NO_INFO"), (1, "ADSB_EMITTER_TYPE_LIGHT"), (2, "ADSB_EMITTER_TYPE_SMALL"),
    (3, "ADSB_EMITTER_TYPE_LARGE"), (4, "ADSB_EMITTER_TYPE_HIGH_VORTEX_LARGE"), (5, "ADSB_EMITTER_TYPE_HEAVY"),
    (6, "ADSB_EMITTER_TYPE_HIGHLY_MANUV"), (7, "ADSB_EMITTER_TYPE_ROTOCRAFT"), (8, "ADSB_EMITTER_TYPE_UNASSIGNED"),
    (9, "ADSB_EMITTER_TYPE_GLIDER"), (10, "ADSB_EMITTER_TYPE_LIGHTER_AIR"), (11, "ADSB_EMITTER_TYPE_PARACHUTE"),
    (12, "ADSB_EMITTER_TYPE_ULTRA_LIGHT"), (13, "ADSB_EMITTER_TYPE_UNASSIGNED2"), (14, "ADSB_EMITTER_TYPE_UAV"),
    (15, "ADSB_EMITTER_TYPE_SPACE"), (16, "ADSB_EMITTER_TYPE_UNASSGINED3"),
    (17, "ADSB_EMITTER_TYPE_EMERGENCY_SURFACE"), (18, "ADSB_EMITTER_TYPE_SERVICE_SURFACE"),
    (19, "ADSB_EMITTER_TYPE_POINT_OBSTACLE"), (20, "ADSB_EMITTER_TYPE_ENUM_END")]⟩

/-- HC_dialect.py:2013-2029 -/
def py36 : PyEnum := ⟨"ADSB_FLAGS",
  [(1, "ADSB_FLAGS_VALID_COORDS"), (2, "ADSB_FLAGS_VALID_ALTITUDE"), (4, "ADSB_FLAGS_VALID_HEADING"),
    (8, "ADSB_FLAGS_VALID_VELOCITY"), (16, "ADSB_FLAGS_VALID_CALLSIGN"), (32, "ADSB_FLAGS_VALID_SQUAWK"),
    (64, "ADSB_FLAGS_SIMULATED"), (65, "ADSB_FLAGS_ENUM_END")]⟩

/-- `enums` of HC_dialect.py, lines 270-2029. -/
def pyEnums : List PyEnum :=
  [py0, py1, py2, py3, py4, py5, py6, py7, py8, py9, py10, py11, py12, py13, py14, py15, py16, py17, py18, py19, py20,
    py21, py22, py23, py24, py25, py26, py27, py28, py29, py30, py31, py32, py33, py34, py35, py36]

/-- The assignments `NAME = value` that precede the entries of `enums`, HC_dialect.py:270-2029. -/
def constants : List (String × Nat) :=
  [("MAV_AUTOPILOT_GENERIC", 0), ("MAV_AUTOPILOT_RESERVED", 1), ("MAV_AUTOPILOT_SLUGS", 2),
    ("MAV_AUTOPILOT_ARDUPILOTMEGA", 3), ("MAV_AUTOPILOT_OPENPILOT", 4), ("MAV_AUTOPILOT_GENERIC_WAYPOINTS_ONLY", 5),
    ("MAV_AUTOPILOT_GENERIC_WAYPOINTS_AND_SIMPLE_NAVIGATION_ONLY", 6), ("MAV_AUTOPILOT_GENERIC_MISSION_FULL", 7),
    ("MAV_AUTOPILOT_INVALID", 8), ("MAV_AUTOPILOT_PPZ", 9), ("MAV_AUTOPILOT_UDB", 10), ("MAV_AUTOPILOT_FP", 11),
    ("MAV_AUTOPILOT_PX4", 12), ("MAV_AUTOPILOT_SMACCMPILOT", 13), ("MAV_AUTOPILOT_AUTOQUAD", 14),
    ("MAV_AUTOPILOT_ARMAZILA", 15), ("MAV_AUTOPILOT_AEROB", 16), ("MAV_AUTOPILOT_ASLUAV", 17),
    ("MAV_AUTOPILOT_ENUM_END", 18), ("MAV_TYPE_GENERIC", 0), ("MAV_TYPE_FIXED_WING", 1), ("MAV_TYPE_QUADROTOR", 2),
    ("MAV_TYPE_COAXIAL", 3), ("MAV_TYPE_HELICOPTER", 4), ("MAV_TYPE_ANTENNA_TRACKER", 5), ("MAV_TYPE_GCS", 6),
    ("MAV_TYPE_AIRSHIP", 7), ("MAV_TYPE_FREE_BALLOON", 8), ("MAV_TYPE_ROCKET", 9), ("MAV_TYPE_GROUND_ROVER", 10),
    ("MAV_TYPE_SURFACE_BOAT", 11), ("MAV_TYPE_SUBMARINE", 12), ("MAV_TYPE_HEXAROTOR", 13), ("MAV_TYPE_OCTOROTOR", 14),
    ("MAV_TYPE_TRICOPTER", 15), ("MAV_TYPE_FLAPPING_WING", 16), ("MAV_TYPE_KITE", 17),
    ("MAV_TYPE_ONBOARD_CONTROLLER", 18), ("MAV_TYPE_VTOL_DUOROTOR", 19), ("MAV_TYPE_VTOL_QUADROTOR", 20),
    ("MAV_TYPE_VTOL_TILTROTOR", 21), ("MAV_TYPE_VTOL_RESERVED2", 22), ("MAV_TYPE_VTOL_RESERVED3", 23),
    ("MAV_TYPE_VTOL_RESERVED4", 24), ("MAV_TYPE_VTOL_RESERVED5", 25), ("MAV_TYPE_GIMBAL", 26), ("MAV_TYPE_ADSB", 27),
    ("MAV_TYPE_ENUM_END", 28), ("FIRMWARE_VERSION_TYPE_DEV", 0), ("FIRMWARE_VERSION_TYPE_ALPHA", 64),
    ("FIRMWARE_VERSION_TYPE_BETA", 128), ("FIRMWARE_VERSION_TYPE_RC", 192), ("FIRMWARE_VERSION_TYPE_OFFICIAL", 255),
    ("FIRMWARE_VERSION_TYPE_ENUM_END", 256), ("MAV_MODE_FLAG_CUSTOM_MODE_ENABLED", 1),
    ("MAV_MODE_FLAG_TEST_ENABLED", 2), ("MAV_MODE_FLAG_AUTO_ENABLED", 4), ("MAV_MODE_FLAG_GUIDED_ENABLED", 8),
    ("MAV_MODE_FLAG_STABILIZE_ENABLED", 16), ("MAV_MODE_FLAG_HIL_ENABLED", 32),
    ("MAV_MODE_FLAG_MANUAL_INPUT_ENABLED", 64), ("MAV_MODE_FLAG_SAFETY_ARMED", 128), ("MAV_MODE_FLAG_ENUM_END", 129),
    ("MAV_MODE_FLAG_DECODE_POSITION_CUSTOM_MODE", 1), ("MAV_MODE_FLAG_DECODE_POSITION_TEST", 2),
    ("MAV_MODE_FLAG_DECODE_POSITION_AUTO", 4), ("MAV_MODE_FLAG_DECODE_POSITION_GUIDED", 8),
    ("MAV_MODE_FLAG_DECODE_POSITION_STABILIZE", 16), ("MAV_MODE_FLAG_DECODE_POSITION_HIL", 32),
    ("MAV_MODE_FLAG_DECODE_POSITION_MANUAL", 64), ("MAV_MODE_FLAG_DECODE_POSITION_SAFETY", 128),
    ("MAV_MODE_FLAG_DECODE_POSITION_ENUM_END", 129), ("MAV_GOTO_DO_HOLD", 0), ("MAV_GOTO_DO_CONTINUE", 1),
    ("MAV_GOTO_HOLD_AT_CURRENT_POSITION", 2), ("MAV_GOTO_HOLD_AT_SPECIFIED_POSITION", 3), ("MAV_GOTO_ENUM_END", 4),
    ("MAV_MODE_PREFLIGHT", 0), ("MAV_MODE_STOP", 32), ("MAV_MODE_MANUAL_DISARMED", 64),
    ("MAV_MODE_TEST_DISARMED", 66), ("MAV_MODE_STABILIZE_DISARMED", 80), ("MAV_MODE_GUIDED_DISARMED", 88),
    ("MAV_MODE_AUTO_DISARMED", 92), ("MAV_MODE_MANUAL_ARMED", 192), ("MAV_MODE_TEST_ARMED", 194),
    ("MAV_MODE_STABILIZE_ARMED", 208), ("MAV_MODE_GUIDED_ARMED", 216), ("MAV_MODE_AUTO_ARMED", 220),
    ("MAV_MODE_ENUM_END", 221), ("MAV_STATE_UNINIT", 0), ("MAV_STATE_BOOT", 1), ("MAV_STATE_CALIBRATING", 2),
    ("MAV_STATE_STANDBY", 3), ("MAV_STATE_ACTIVE", 4), ("MAV_STATE_CRITICAL", 5), ("MAV_STATE_EMERGENCY", 6),
    ("MAV_STATE_POWEROFF", 7), ("MAV_STATE_ENUM_END", 8), ("MAV_COMP_ID_ALL", 0), ("MAV_COMP_ID_CAMERA", 100),
    ("MAV_COMP_ID_SERVO1", 140), ("MAV_COMP_ID_SERVO2", 141), ("MAV_COMP_ID_SERVO3", 142),
    ("MAV_COMP_ID_SERVO4", 143), ("MAV_COMP_ID_SERVO5", 144), ("MAV_COMP_ID_SERVO6", 145),
    ("MAV_COMP_ID_SERVO7", 146), ("MAV_COMP_ID_SERVO8", 147), ("MAV_COMP_ID_SERVO9", 148),
    ("MAV_COMP_ID_SERVO10", 149), ("MAV_COMP_ID_SERVO11", 150), ("MAV_COMP_ID_SERVO12", 151),
    ("MAV_COMP_ID_SERVO13", 152), ("MAV_COMP_ID_SERVO14", 153), ("MAV_COMP_ID_GIMBAL", 154), ("MAV_COMP_ID_LOG", 155),
    ("MAV_COMP_ID_ADSB", 156), ("MAV_COMP_ID_MAPPER", 180), ("MAV_COMP_ID_MISSIONPLANNER", 190),
    ("MAV_COMP_ID_PATHPLANNER", 195), ("MAV_COMP_ID_IMU", 200), ("MAV_COMP_ID_IMU_2", 201),
    ("MAV_COMP_ID_IMU_3", 202), ("MAV_COMP_ID_GPS", 220), ("MAV_COMP_ID_UDP_BRIDGE", 240),
    ("MAV_COMP_ID_UART_BRIDGE", 241), ("MAV_COMP_ID_SYSTEM_CONTROL", 250), ("MAV_COMPONENT_ENUM_END", 251),
    ("MAV_SYS_STATUS_SENSOR_3D_GYRO", 1), ("MAV_SYS_STATUS_SENSOR_3D_ACCEL", 2), ("MAV_SYS_STATUS_SENSOR_3D_MAG", 4),
    ("MAV_SYS_STATUS_SENSOR_ABSOLUTE_PRESSURE", 8), ("MAV_SYS_STATUS_SENSOR_DIFFERENTIAL_PRESSURE", 16),
    ("MAV_SYS_STATUS_SENSOR_GPS", 32), ("MAV_SYS_STATUS_SENSOR_OPTICAL_FLOW", 64),
    ("MAV_SYS_STATUS_SENSOR_VISION_POSITION", 128), ("MAV_SYS_STATUS_SENSOR_LASER_POSITION", 256),
    ("MAV_SYS_STATUS_SENSOR_EXTERNAL_GROUND_TRUTH", 512), ("MAV_SYS_STATUS_SENSOR_ANGULAR_RATE_CONTROL", 1024),
    ("MAV_SYS_STATUS_SENSOR_ATTITUDE_STABILIZATION", 2048), ("MAV_SYS_STATUS_SENSOR_YAW_POSITION", 4096),
    ("MAV_SYS_STATUS_SENSOR_Z_ALTITUDE_CONTROL", 8192), ("MAV_SYS_STATUS_SENSOR_XY_POSITION_CONTROL", 16384),
    ("MAV_SYS_STATUS_SENSOR_MOTOR_OUTPUTS", 32768), ("MAV_SYS_STATUS_SENSOR_RC_RECEIVER", 65536),
    ("MAV_SYS_STATUS_SENSOR_3D_GYRO2", 131072), ("MAV_SYS_STATUS_SENSOR_3D_ACCEL2", 262144),
    ("MAV_SYS_STATUS_SENSOR_3D_MAG2", 524288), ("MAV_SYS_STATUS_GEOFENCE", 1048576), ("MAV_SYS_STATUS_AHRS", 2097152),
    ("MAV_SYS_STATUS_TERRAIN", 4194304), ("MAV_SYS_STATUS_SENSOR_ENUM_END", 4194305), ("MAV_FRAME_GLOBAL", 0),
    ("MAV_FRAME_LOCAL_NED", 1), ("MAV_FRAME_MISSION", 2), ("MAV_FRAME_GLOBAL_RELATIVE_ALT", 3),
    ("MAV_FRAME_LOCAL_ENU", 4), ("MAV_FRAME_GLOBAL_INT", 5), ("MAV_FRAME_GLOBAL_RELATIVE_ALT_INT", 6),
    ("MAV_FRAME_LOCAL_OFFSET_NED", 7), ("MAV_FRAME_BODY_NED", 8), ("MAV_FRAME_BODY_OFFSET_NED", 9),
    ("MAV_FRAME_GLOBAL_TERRAIN_ALT", 10), ("MAV_FRAME_GLOBAL_TERRAIN_ALT_INT", 11), ("MAV_FRAME_HCMISSION", 12),
    ("MAV_FRAME_ENUM_END", 13), ("MAVLINK_DATA_STREAM_IMG_JPEG", 1), ("MAVLINK_DATA_STREAM_IMG_BMP", 2),
    ("MAVLINK_DATA_STREAM_IMG_RAW8U", 3), ("MAVLINK_DATA_STREAM_IMG_RAW32U", 4), ("MAVLINK_DATA_STREAM_IMG_PGM", 5),
    ("MAVLINK_DATA_STREAM_IMG_PNG", 6), ("MAVLINK_DATA_STREAM_TYPE_ENUM_END", 7), ("FENCE_ACTION_NONE", 0),
    ("FENCE_ACTION_GUIDED", 1), ("FENCE_ACTION_REPORT", 2), ("FENCE_ACTION_GUIDED_THR_PASS", 3),
    ("FENCE_ACTION_ENUM_END", 4), ("FENCE_BREACH_NONE", 0), ("FENCE_BREACH_MINALT", 1), ("FENCE_BREACH_MAXALT", 2),
    ("FENCE_BREACH_BOUNDARY", 3), ("FENCE_BREACH_ENUM_END", 4), ("MAV_MOUNT_MODE_RETRACT", 0),
    ("MAV_MOUNT_MODE_NEUTRAL", 1), ("MAV_MOUNT_MODE_MAVLINK_TARGETING", 2), ("MAV_MOUNT_MODE_RC_TARGETING", 3),
    ("MAV_MOUNT_MODE_GPS_POINT", 4), ("MAV_MOUNT_MODE_ENUM_END", 5), ("MAV_CMD_NAV_WAYPOINT", 16),
    ("MAV_CMD_NAV_LOITER_UNLIM", 17), ("MAV_CMD_NAV_LOITER_TURNS", 18), ("MAV_CMD_NAV_LOITER_TIME", 19),
    ("MAV_CMD_NAV_RETURN_TO_LAUNCH", 20), ("MAV_CMD_NAV_LAND", 21), ("MAV_CMD_NAV_SAFETY_REGION", 22),
    ("MAV_CMD_NAV_LAND_LOCAL", 23), ("MAV_CMD_NAV_TAKEOFF_LOCAL", 24), ("MAV_CMD_NAV_FOLLOW", 25),
    ("MAV_CMD_NAV_CONTINUE_AND_CHANGE_ALT", 30), ("MAV_CMD_NAV_LOITER_TO_ALT", 31), ("MAV_CMD_NAV_ROI", 80),
    ("MAV_CMD_NAV_PATHPLANNING", 81), ("MAV_CMD_NAV_SPLINE_WAYPOINT", 82), ("MAV_CMD_NAV_VTOL_TAKEOFF", 84),
    ("MAV_CMD_NAV_VTOL_LAND", 85), ("MAV_CMD_NAV_GUIDED_ENABLE", 92), ("MAV_CMD_NAV_LAST", 95),
    ("MAV_CMD_CONDITION_DELAY", 112), ("MAV_CMD_CONDITION_CHANGE_ALT", 113), ("MAV_CMD_CONDITION_DISTANCE", 114),
    ("MAV_CMD_CONDITION_YAW", 115), ("MAV_CMD_CONDITION_LAST", 159), ("MAV_CMD_DO_SET_MODE", 176),
    ("MAV_CMD_DO_JUMP", 177), ("MAV_CMD_DO_CHANGE_SPEED", 178), ("MAV_CMD_DO_SET_HOME", 179),
    ("MAV_CMD_DO_SET_PARAMETER", 180), ("MAV_CMD_DO_SET_RELAY", 181), ("MAV_CMD_DO_REPEAT_RELAY", 182),
    ("MAV_CMD_DO_SET_SERVO", 183), ("MAV_CMD_DO_REPEAT_SERVO", 184), ("MAV_CMD_DO_FLIGHTTERMINATION", 185),
    ("MAV_CMD_DO_LAND_START", 189), ("MAV_CMD_DO_RALLY_LAND", 190), ("MAV_CMD_DO_GO_AROUND", 191),
    ("MAV_CMD_DO_CONTROL_VIDEO", 200), ("MAV_CMD_DO_SET_ROI", 201), ("MAV_CMD_DO_DIGICAM_CONFIGURE", 202),
    ("MAV_CMD_DO_DIGICAM_CONTROL", 203), ("MAV_CMD_DO_MOUNT_CONFIGURE", 204), ("MAV_CMD_DO_MOUNT_CONTROL", 205),
    ("MAV_CMD_DO_SET_CAM_TRIGG_DIST", 206), ("MAV_CMD_DO_FENCE_ENABLE", 207), ("MAV_CMD_DO_PARACHUTE", 208),
    ("MAV_CMD_DO_INVERTED_FLIGHT", 210), ("MAV_CMD_DO_MOUNT_CONTROL_QUAT", 220), ("MAV_CMD_DO_GUIDED_MASTER", 221),
    ("MAV_CMD_DO_GUIDED_LIMITS", 222), ("MAV_CMD_DO_LAST", 240), ("MAV_CMD_PREFLIGHT_CALIBRATION", 241),
    ("MAV_CMD_PREFLIGHT_SET_SENSOR_OFFSETS", 242), ("MAV_CMD_PREFLIGHT_UAVCAN", 243),
    ("MAV_CMD_PREFLIGHT_STORAGE", 245), ("MAV_CMD_PREFLIGHT_REBOOT_SHUTDOWN", 246), ("MAV_CMD_OVERRIDE_GOTO", 252),
    ("MAV_CMD_MISSION_START", 300), ("MAV_CMD_COMPONENT_ARM_DISARM", 400), ("MAV_CMD_GET_HOME_POSITION", 410),
    ("MAV_CMD_START_RX_PAIR", 500), ("MAV_CMD_GET_MESSAGE_INTERVAL", 510), ("MAV_CMD_SET_MESSAGE_INTERVAL", 511),
    ("MAV_CMD_REQUEST_AUTOPILOT_CAPABILITIES", 520), ("MAV_CMD_IMAGE_START_CAPTURE", 2000),
    ("MAV_CMD_IMAGE_STOP_CAPTURE", 2001), ("MAV_CMD_DO_TRIGGER_CONTROL", 2003), ("MAV_CMD_VIDEO_START_CAPTURE", 2500),
    ("MAV_CMD_VIDEO_STOP_CAPTURE", 2501), ("MAV_CMD_PANORAMA_CREATE", 2800), ("MAV_CMD_DO_VTOL_TRANSITION", 3000),
    ("MAV_CMD_PAYLOAD_PREPARE_DEPLOY", 30001), ("MAV_CMD_PAYLOAD_CONTROL_DEPLOY", 30002), ("MAV_CMD_ENUM_END", 30003),
    ("MAV_DATA_STREAM_ALL", 0), ("MAV_DATA_STREAM_RAW_SENSORS", 1), ("MAV_DATA_STREAM_EXTENDED_STATUS", 2),
    ("MAV_DATA_STREAM_RC_CHANNELS", 3), ("MAV_DATA_STREAM_RAW_CONTROLLER", 4), ("MAV_DATA_STREAM_POSITION", 6),
    ("MAV_DATA_STREAM_EXTRA1", 10), ("MAV_DATA_STREAM_EXTRA2", 11), ("MAV_DATA_STREAM_EXTRA3", 12),
    ("MAV_DATA_STREAM_ENUM_END", 13), ("MAV_ROI_NONE", 0), ("MAV_ROI_WPNEXT", 1), ("MAV_ROI_WPINDEX", 2),
    ("MAV_ROI_LOCATION", 3), ("MAV_ROI_TARGET", 4), ("MAV_ROI_ENUM_END", 5), ("MAV_CMD_ACK_OK", 1),
    ("MAV_CMD_ACK_ERR_FAIL", 2), ("MAV_CMD_ACK_ERR_ACCESS_DENIED", 3), ("MAV_CMD_ACK_ERR_NOT_SUPPORTED", 4),
    ("MAV_CMD_ACK_ERR_COORDINATE_FRAME_NOT_SUPPORTED", 5), ("MAV_CMD_ACK_ERR_COORDINATES_OUT_OF_RANGE", 6),
    ("MAV_CMD_ACK_ERR_X_LAT_OUT_OF_RANGE", 7), ("MAV_CMD_ACK_ERR_Y_LON_OUT_OF_RANGE", 8),
    ("MAV_CMD_ACK_ERR_Z_ALT_OUT_OF_RANGE", 9), ("MAV_CMD_ACK_ENUM_END", 10), ("MAV_PARAM_TYPE_UINT8", 1),
    ("MAV_PARAM_TYPE_INT8", 2), ("MAV_PARAM_TYPE_UINT16", 3), ("MAV_PARAM_TYPE_INT16", 4),
    ("MAV_PARAM_TYPE_UINT32", 5), ("MAV_PARAM_TYPE_INT32", 6), ("MAV_PARAM_TYPE_UINT64", 7),
    ("MAV_PARAM_TYPE_INT64", 8), ("MAV_PARAM_TYPE_REAL32", 9), ("MAV_PARAM_TYPE_REAL64", 10),
    ("MAV_PARAM_TYPE_ENUM_END", 11), ("MAV_RESULT_ACCEPTED", 0), ("MAV_RESULT_TEMPORARILY_REJECTED", 1),
    ("MAV_RESULT_DENIED", 2), ("MAV_RESULT_UNSUPPORTED", 3), ("MAV_RESULT_FAILED", 4), ("MAV_RESULT_ENUM_END", 5),
    ("MAV_MISSION_ACCEPTED", 0), ("MAV_MISSION_ERROR", 1), ("MAV_MISSION_UNSUPPORTED_FRAME", 2),
    ("MAV_MISSION_UNSUPPORTED", 3), ("MAV_MISSION_NO_SPACE", 4), ("MAV_MISSION_INVALID", 5),
    ("MAV_MISSION_INVALID_PARAM1", 6), ("MAV_MISSION_INVALID_PARAM2", 7), ("MAV_MISSION_INVALID_PARAM3", 8),
    ("MAV_MISSION_INVALID_PARAM4", 9), ("MAV_MISSION_INVALID_PARAM5_X", 10), ("MAV_MISSION_INVALID_PARAM6_Y", 11),
    ("MAV_MISSION_INVALID_PARAM7", 12), ("MAV_MISSION_INVALID_SEQUENCE", 13), ("MAV_MISSION_DENIED", 14),
    ("MAV_MISSION_RESULT_ENUM_END", 15), ("MAV_SEVERITY_EMERGENCY", 0), ("MAV_SEVERITY_ALERT", 1),
    ("MAV_SEVERITY_CRITICAL", 2), ("MAV_SEVERITY_ERROR", 3), ("MAV_SEVERITY_WARNING", 4), ("MAV_SEVERITY_NOTICE", 5),
    ("MAV_SEVERITY_INFO", 6), ("MAV_SEVERITY_DEBUG", 7), ("MAV_SEVERITY_ENUM_END", 8),
    ("MAV_POWER_STATUS_BRICK_VALID", 1), ("MAV_POWER_STATUS_SERVO_VALID", 2), ("MAV_POWER_STATUS_USB_CONNECTED", 4),
    ("MAV_POWER_STATUS_PERIPH_OVERCURRENT", 8), ("MAV_POWER_STATUS_PERIPH_HIPOWER_OVERCURRENT", 16),
    ("MAV_POWER_STATUS_CHANGED", 32), ("MAV_POWER_STATUS_ENUM_END", 33), ("SERIAL_CONTROL_DEV_TELEM1", 0),
    ("SERIAL_CONTROL_DEV_TELEM2", 1), ("SERIAL_CONTROL_DEV_GPS1", 2), ("SERIAL_CONTROL_DEV_GPS2", 3),
    ("SERIAL_CONTROL_DEV_SHELL", 10), ("SERIAL_CONTROL_DEV_ENUM_END", 11), ("SERIAL_CONTROL_FLAG_REPLY", 1),
    ("SERIAL_CONTROL_FLAG_RESPOND", 2), ("SERIAL_CONTROL_FLAG_EXCLUSIVE", 4), ("SERIAL_CONTROL_FLAG_BLOCKING", 8),
    ("SERIAL_CONTROL_FLAG_MULTI", 16), ("SERIAL_CONTROL_FLAG_ENUM_END", 17), ("MAV_DISTANCE_SENSOR_LASER", 0),
    ("MAV_DISTANCE_SENSOR_ULTRASOUND", 1), ("MAV_DISTANCE_SENSOR_INFRARED", 2), ("MAV_DISTANCE_SENSOR_ENUM_END", 3),
    ("MAV_SENSOR_ROTATION_NONE", 0), ("MAV_SENSOR_ROTATION_YAW_45", 1), ("MAV_SENSOR_ROTATION_YAW_90", 2),
    ("MAV_SENSOR_ROTATION_YAW_135", 3), ("MAV_SENSOR_ROTATION_YAW_180", 4), ("MAV_SENSOR_ROTATION_YAW_225", 5),
    ("MAV_SENSOR_ROTATION_YAW_270", 6), ("MAV_SENSOR_ROTATION_YAW_315", 7), ("MAV_SENSOR_ROTATION_ROLL_180", 8),
    ("MAV_SENSOR_ROTATION_ROLL_180_YAW_45", 9), ("MAV_SENSOR_ROTATION_ROLL_180_YAW_90", 10),
    ("MAV_SENSOR_ROTATION_ROLL_180_YAW_135", 11), ("MAV_SENSOR_ROTATION_PITCH_180", 12),
    ("MAV_SENSOR_ROTATION_ROLL_180_YAW_225", 13), ("MAV_SENSOR_ROTATION_ROLL_180_YAW_270", 14),
    ("MAV_SENSOR_ROTATION_ROLL_180_YAW_315", 15), ("MAV_SENSOR_ROTATION_ROLL_90", 16),
    ("MAV_SENSOR_ROTATION_ROLL_90_YAW_45", 17), ("MAV_SENSOR_ROTATION_ROLL_90_YAW_90", 18),
    ("MAV_SENSOR_ROTATION_ROLL_90_YAW_135", 19), ("MAV_SENSOR_ROTATION_ROLL_270", 20),
    ("MAV_SENSOR_ROTATION_ROLL_270_YAW_45", 21), ("MAV_SENSOR_ROTATION_ROLL_270_YAW_90", 22),
    ("MAV_SENSOR_ROTATION_ROLL_270_YAW_135", 23), ("MAV_SENSOR_ROTATION_PITCH_90", 24),
    ("MAV_SENSOR_ROTATION_PITCH_270", 25), ("MAV_SENSOR_ROTATION_PITCH_180_YAW_90", 26),
    ("MAV_SENSOR_ROTATION_PITCH_180_YAW_270", 27), ("MAV_SENSOR_ROTATION_ROLL_90_PITCH_90", 28),
    ("MAV_SENSOR_ROTATION_ROLL_180_PITCH_90", 29), ("MAV_SENSOR_ROTATION_ROLL_270_PITCH_90", 30),
    ("MAV_SENSOR_ROTATION_ROLL_90_PITCH_180", 31), ("MAV_SENSOR_ROTATION_ROLL_270_PITCH_180", 32),
    ("MAV_SENSOR_ROTATION_ROLL_90_PITCH_270", 33), ("MAV_SENSOR_ROTATION_ROLL_180_PITCH_270", 34),
    ("MAV_SENSOR_ROTATION_ROLL_270_PITCH_270", 35), ("MAV_SENSOR_ROTATION_ROLL_90_PITCH_180_YAW_90", 36),
    ("MAV_SENSOR_ROTATION_ROLL_90_YAW_270", 37), ("MAV_SENSOR_ROTATION_ROLL_315_PITCH_315_YAW_315", 38),
    ("MAV_SENSOR_ORIENTATION_ENUM_END", 39), ("MAV_PROTOCOL_CAPABILITY_MISSION_FLOAT", 1),
    ("MAV_PROTOCOL_CAPABILITY_PARAM_FLOAT", 2), ("MAV_PROTOCOL_CAPABILITY_MISSION_INT", 4),
    ("MAV_PROTOCOL_CAPABILITY_COMMAND_INT", 8), ("MAV_PROTOCOL_CAPABILITY_PARAM_UNION", 16),
    ("MAV_PROTOCOL_CAPABILITY_FTP", 32), ("MAV_PROTOCOL_CAPABILITY_SET_ATTITUDE_TARGET", 64),
    ("MAV_PROTOCOL_CAPABILITY_SET_POSITION_TARGET_LOCAL_NED", 128),
    ("MAV_PROTOCOL_CAPABILITY_SET_POSITION_TARGET_GLOBAL_INT", 256), ("MAV_PROTOCOL_CAPABILITY_TERRAIN", 512),
    ("MAV_PROTOCOL_CAPABILITY_SET_ACTUATOR_TARGET", 1024), ("MAV_PROTOCOL_CAPABILITY_FLIGHT_TERMINATION", 2048),
    ("MAV_PROTOCOL_CAPABILITY_COMPASS_CALIBRATION", 4096), ("MAV_PROTOCOL_CAPABILITY_ENUM_END", 4097),
    ("MAV_ESTIMATOR_TYPE_NAIVE", 1), ("MAV_ESTIMATOR_TYPE_VISION", 2), ("MAV_ESTIMATOR_TYPE_VIO", 3),
    ("MAV_ESTIMATOR_TYPE_GPS", 4), ("MAV_ESTIMATOR_TYPE_GPS_INS", 5), ("MAV_ESTIMATOR_TYPE_ENUM_END", 6),
    ("MAV_BATTERY_TYPE_UNKNOWN", 0), ("MAV_BATTERY_TYPE_LIPO", 1), ("MAV_BATTERY_TYPE_LIFE", 2),
    ("MAV_BATTERY_TYPE_LION", 3), ("MAV_BATTERY_TYPE_NIMH", 4), ("MAV_BATTERY_TYPE_ENUM_END", 5),
    ("MAV_BATTERY_FUNCTION_UNKNOWN", 0), ("MAV_BATTERY_FUNCTION_ALL", 1), ("MAV_BATTERY_FUNCTION_PROPULSION", 2),
    ("MAV_BATTERY_FUNCTION_AVIONICS", 3), ("MAV_BATTERY_TYPE_PAYLOAD", 4), ("MAV_BATTERY_FUNCTION_ENUM_END", 5),
    ("MAV_VTOL_STATE_UNDEFINED", 0), ("MAV_VTOL_STATE_TRANSITION_TO_FW", 1), ("MAV_VTOL_STATE_TRANSITION_TO_MC", 2),
    ("MAV_VTOL_STATE_MC", 3), ("MAV_VTOL_STATE_FW", 4), ("MAV_VTOL_STATE_ENUM_END", 5),
    ("MAV_LANDED_STATE_UNDEFINED", 0), ("MAV_LANDED_STATE_ON_GROUND", 1), ("MAV_LANDED_STATE_IN_AIR", 2),
    ("MAV_LANDED_STATE_ENUM_END", 3), ("ADSB_ALTITUDE_TYPE_PRESSURE_QNH", 0), ("ADSB_ALTITUDE_TYPE_GEOMETRIC", 1),
    ("ADSB_ALTITUDE_TYPE_ENUM_END", 2), ("ADSB_EMITTER_TYPE_NO_INFO", 0), ("ADSB_EMITTER_TYPE_LIGHT", 1),
    ("ADSB_EMITTER_TYPE_SMALL", 2), ("ADSB_EMITTER_TYPE_LARGE", 3), ("ADSB_EMITTER_TYPE_HIGH_VORTEX_LARGE", 4),
    ("ADSB_EMITTER_TYPE_HEAVY", 5), ("ADSB_EMITTER_TYPE_HIGHLY_MANUV", 6), ("ADSB_EMITTER_TYPE_ROTOCRAFT", 7),
    ("ADSB_EMITTER_TYPE_UNASSIGNED", 8), ("ADSB_EMITTER_TYPE_GLIDER", 9), ("ADSB_EMITTER_TYPE_LIGHTER_AIR", 10),
    ("ADSB_EMITTER_TYPE_PARACHUTE", 11), ("ADSB_EMITTER_TYPE_ULTRA_LIGHT", 12), ("ADSB_EMITTER_TYPE_UNASSIGNED2", 13),
    ("ADSB_EMITTER_TYPE_UAV", 14), ("ADSB_EMITTER_TYPE_SPACE", 15), ("ADSB_EMITTER_TYPE_UNASSGINED3", 16),
    ("ADSB_EMITTER_TYPE_EMERGENCY_SURFACE", 17), ("ADSB_EMITTER_TYPE_SERVICE_SURFACE", 18),
    ("ADSB_EMITTER_TYPE_POINT_OBSTACLE", 19), ("ADSB_EMITTER_TYPE_ENUM_END", 20), ("ADSB_FLAGS_VALID_COORDS", 1),
    ("ADSB_FLAGS_VALID_ALTITUDE", 2), ("ADSB_FLAGS_VALID_HEADING", 4), ("ADSB_FLAGS_VALID_VELOCITY", 8),
    ("ADSB_FLAGS_VALID_CALLSIGN", 16), ("ADSB_FLAGS_VALID_SQUAWK", 32), ("ADSB_FLAGS_SIMULATED", 64),
    ("ADSB_FLAGS_ENUM_END", 65)]

end HcXml

namespace MinimalXml
open CType

/-- minimal_dialect.xml:1826-1834 -/
def msg0 : XmlMsg := ⟨0, "HEARTBEAT",
  [⟨"type", u8, 0⟩, ⟨"autopilot", u8, 0⟩, ⟨"base_mode", u8, 0⟩, ⟨"custom_mode", u32, 0⟩, ⟨"system_status", u8, 0⟩,
    ⟨"mavlink_version", u8, 0⟩]⟩

/-- minimal_dialect.xml:1835-1849 -/
def msg33 : XmlMsg := ⟨33, "GLOBAL_POSITION_INT",
  [⟨"time_boot_ms", u32, 0⟩, ⟨"lat", i32, 0⟩, ⟨"lon", i32, 0⟩, ⟨"alt", f32, 0⟩, ⟨"relative_alt", f32, 0⟩,
    ⟨"bottom_clearnce", f32, 0⟩, ⟨"depth", f32, 0⟩, ⟨"vx", f32, 0⟩, ⟨"vy", f32, 0⟩, ⟨"vz", f32, 0⟩, ⟨"hdg", f32, 0⟩]⟩

/-- minimal_dialect.xml:1850-1858 -/
def msg212 : XmlMsg := ⟨212, "SCALED_SVS",
  [⟨"time_boot_ms", u32, 0⟩, ⟨"Speed_of_Sound", f32, 0⟩, ⟨"Depth", f32, 0⟩, ⟨"Temperature", u16, 0⟩,
    ⟨"Status", u8, 0⟩, ⟨"Reserved", f32, 0⟩]⟩

/-- minimal_dialect.xml:1859-1866 -/
def msg218 : XmlMsg := ⟨218, "CHAMBER_STATUS",
  [⟨"time_boot_ms", u32, 0⟩, ⟨"chamber_num", u8, 0⟩, ⟨"pressure", u8, 0⟩, ⟨"temperature", u16, 0⟩,
    ⟨"humidity", u16, 0⟩]⟩

/-- minimal_dialect.xml:1867-1875 -/
def msg225 : XmlMsg := ⟨225, "SYSTEM_STATUS_2",
  [⟨"time_boot_ms", u32, 0⟩, ⟨"hc_mode", u16, 0⟩, ⟨"hc_system_status", u16, 0⟩, ⟨"hc_err_id", u32, 0⟩,
    ⟨"debug1", f32, 0⟩, ⟨"debug2", f32, 0⟩]⟩

/-- minimal_dialect.xml:1876-1882 -/
def msg234 : XmlMsg := ⟨234, "PINGER_DATA",
  [⟨"time_boot_ms", u32, 0⟩, ⟨"range", f32, 0⟩, ⟨"azimuth", f32, 0⟩]⟩

/-- The messages of minimal_dialect.xml. -/
def messages : List XmlMsg :=
  [msg0, msg33, msg212, msg218, msg225, msg234]

/-- minimal_dialect.xml:5-61 -/
def enum0 : XmlEnum := ⟨"MAV_AUTOPILOT",
  [(some 0, "MAV_AUTOPILOT_GENERIC"), (some 1, "MAV_AUTOPILOT_RESERVED"), (some 2, "MAV_AUTOPILOT_SLUGS"),
    (some 3, "MAV_AUTOPILOT_ARDUPILOTMEGA"), (some 4, "MAV_AUTOPILOT_OPENPILOT"),
    (some 5, "MAV_AUTOPILOT_GENERIC_WAYPOINTS_ONLY"),
    (some 6, "MAV_AUTOPILOT_GENERIC_WAYPOINTS_AND_SIMPLE_NAVIGATION_ONLY"),
    (some 7, "MAV_AUTOPILOT_GENERIC_MISSION_FULL"), (some 8, "MAV_AUTOPILOT_INVALID"), (some 9, "MAV_AUTOPILOT_PPZ"),
    (some 10, "MAV_AUTOPILOT_UDB"), (some 11, "MAV_AUTOPILOT_FP"), (some 12, "MAV_AUTOPILOT_PX4"),
    (some 13, "MAV_AUTOPILOT_SMACCMPILOT"), (some 14, "MAV_AUTOPILOT_AUTOQUAD"), (some 15, "MAV_AUTOPILOT_ARMAZILA"),
    (some 16, "MAV_AUTOPILOT_AEROB"), (some 17, "MAV_AUTOPILOT_ASLUAV")]⟩

/-- minimal_dialect.xml:62-148 -/
def enum1 : XmlEnum := ⟨"MAV_TYPE",
  [(some 0, "MAV_TYPE_GENERIC"), (some 1, "MAV_TYPE_FIXED_WING"), (some 2, "MAV_TYPE_QUADROTOR"),
    (some 3, "MAV_TYPE_COAXIAL"), (some 4, "MAV_TYPE_HELICOPTER"), (some 5, "MAV_TYPE_ANTENNA_TRACKER"),
    (some 6, "MAV_TYPE_GCS"), (some 7, "MAV_TYPE_AIRSHIP"), (some 8, "MAV_TYPE_FREE_BALLOON"),
    (some 9, "MAV_TYPE_ROCKET"), (some 10, "MAV_TYPE_GROUND_ROVER"), (some 11, "MAV_TYPE_SURFACE_BOAT"),
    (some 12, "MAV_TYPE_SUBMARINE"), (some 13, "MAV_TYPE_HEXAROTOR"), (some 14, "MAV_TYPE_OCTOROTOR"),
    (some 15, "MAV_TYPE_TRICOPTER"), (some 16, "MAV_TYPE_FLAPPING_WING"), (some 17, "MAV_TYPE_KITE"),
    (some 18, "MAV_TYPE_ONBOARD_CONTROLLER"), (some 19, "MAV_TYPE_VTOL_DUOROTOR"),
    (some 20, "MAV_TYPE_VTOL_QUADROTOR"), (some 21, "MAV_TYPE_VTOL_TILTROTOR"), (some 22, "MAV_TYPE_VTOL_RESERVED2"),
    (some 23, "MAV_TYPE_VTOL_RESERVED3"), (some 24, "MAV_TYPE_VTOL_RESERVED4"), (some 25, "MAV_TYPE_VTOL_RESERVED5"),
    (some 26, "MAV_TYPE_GIMBAL"), (some 27, "MAV_TYPE_ADSB")]⟩

/-- minimal_dialect.xml:149-166 -/
def enum2 : XmlEnum := ⟨"FIRMWARE_VERSION_TYPE",
  [(some 0, "FIRMWARE_VERSION_TYPE_DEV"), (some 64, "FIRMWARE_VERSION_TYPE_ALPHA"),
    (some 128, "FIRMWARE_VERSION_TYPE_BETA"), (some 192, "FIRMWARE_VERSION_TYPE_RC"),
    (some 255, "FIRMWARE_VERSION_TYPE_OFFICIAL")]⟩

/-- minimal_dialect.xml:168-194 -/
def enum3 : XmlEnum := ⟨"MAV_MODE_FLAG",
  [(some 128, "MAV_MODE_FLAG_SAFETY_ARMED"), (some 64, "MAV_MODE_FLAG_MANUAL_INPUT_ENABLED"),
    (some 32, "MAV_MODE_FLAG_HIL_ENABLED"), (some 16, "MAV_MODE_FLAG_STABILIZE_ENABLED"),
    (some 8, "MAV_MODE_FLAG_GUIDED_ENABLED"), (some 4, "MAV_MODE_FLAG_AUTO_ENABLED"),
    (some 2, "MAV_MODE_FLAG_TEST_ENABLED"), (some 1, "MAV_MODE_FLAG_CUSTOM_MODE_ENABLED")]⟩

/-- minimal_dialect.xml:195-221 -/
def enum4 : XmlEnum := ⟨"MAV_MODE_FLAG_DECODE_POSITION",
  [(some 128, "MAV_MODE_FLAG_DECODE_POSITION_SAFETY"), (some 64, "MAV_MODE_FLAG_DECODE_POSITION_MANUAL"),
    (some 32, "MAV_MODE_FLAG_DECODE_POSITION_HIL"), (some 16, "MAV_MODE_FLAG_DECODE_POSITION_STABILIZE"),
    (some 8, "MAV_MODE_FLAG_DECODE_POSITION_GUIDED"), (some 4, "MAV_MODE_FLAG_DECODE_POSITION_AUTO"),
    (some 2, "MAV_MODE_FLAG_DECODE_POSITION_TEST"), (some 1, "MAV_MODE_FLAG_DECODE_POSITION_CUSTOM_MODE")]⟩

/-- minimal_dialect.xml:222-236 -/
def enum5 : XmlEnum := ⟨"MAV_GOTO",
  [(some 0, "MAV_GOTO_DO_HOLD"), (some 1, "MAV_GOTO_DO_CONTINUE"), (some 2, "MAV_GOTO_HOLD_AT_CURRENT_POSITION"),
    (some 3, "MAV_GOTO_HOLD_AT_SPECIFIED_POSITION")]⟩

/-- minimal_dialect.xml:237-276 -/
def enum6 : XmlEnum := ⟨"MAV_MODE",
  [(some 0, "MAV_MODE_PREFLIGHT"), (some 32, "MAV_MODE_STOP"), (some 80, "MAV_MODE_STABILIZE_DISARMED"),
    (some 208, "MAV_MODE_STABILIZE_ARMED"), (some 64, "MAV_MODE_MANUAL_DISARMED"),
    (some 192, "MAV_MODE_MANUAL_ARMED"), (some 88, "MAV_MODE_GUIDED_DISARMED"), (some 216, "MAV_MODE_GUIDED_ARMED"),
    (some 92, "MAV_MODE_AUTO_DISARMED"), (some 220, "MAV_MODE_AUTO_ARMED"), (some 66, "MAV_MODE_TEST_DISARMED"),
    (some 194, "MAV_MODE_TEST_ARMED")]⟩

/-- minimal_dialect.xml:277-302 -/
def enum7 : XmlEnum := ⟨"MAV_STATE",
  [(some 0, "MAV_STATE_UNINIT"), (none, "MAV_STATE_BOOT"), (none, "MAV_STATE_CALIBRATING"),
    (none, "MAV_STATE_STANDBY"), (none, "MAV_STATE_ACTIVE"), (none, "MAV_STATE_CRITICAL"),
    (none, "MAV_STATE_EMERGENCY"), (none, "MAV_STATE_POWEROFF")]⟩

/-- minimal_dialect.xml:303-391 -/
def enum8 : XmlEnum := ⟨"MAV_COMPONENT",
  [(some 0, "MAV_COMP_ID_ALL"), (some 220, "MAV_COMP_ID_GPS"), (some 190, "MAV_COMP_ID_MISSIONPLANNER"),
    (some 195, "MAV_COMP_ID_PATHPLANNER"), (some 180, "MAV_COMP_ID_MAPPER"), (some 100, "MAV_COMP_ID_CAMERA"),
    (some 200, "MAV_COMP_ID_IMU"), (some 201, "MAV_COMP_ID_IMU_2"), (some 202, "MAV_COMP_ID_IMU_3"),
    (some 240, "MAV_COMP_ID_UDP_BRIDGE"), (some 241, "MAV_COMP_ID_UART_BRIDGE"),
    (some 250, "MAV_COMP_ID_SYSTEM_CONTROL"), (some 140, "MAV_COMP_ID_SERVO1"), (some 141, "MAV_COMP_ID_SERVO2"),
    (some 142, "MAV_COMP_ID_SERVO3"), (some 143, "MAV_COMP_ID_SERVO4"), (some 144, "MAV_COMP_ID_SERVO5"),
    (some 145, "MAV_COMP_ID_SERVO6"), (some 146, "MAV_COMP_ID_SERVO7"), (some 147, "MAV_COMP_ID_SERVO8"),
    (some 148, "MAV_COMP_ID_SERVO9"), (some 149, "MAV_COMP_ID_SERVO10"), (some 150, "MAV_COMP_ID_SERVO11"),
    (some 151, "MAV_COMP_ID_SERVO12"), (some 152, "MAV_COMP_ID_SERVO13"), (some 153, "MAV_COMP_ID_SERVO14"),
    (some 154, "MAV_COMP_ID_GIMBAL"), (some 155, "MAV_COMP_ID_LOG"), (some 156, "MAV_COMP_ID_ADSB")]⟩

/-- minimal_dialect.xml:392-463 -/
def enum9 : XmlEnum := ⟨"MAV_SYS_STATUS_SENSOR",
  [(some 1, "MAV_SYS_STATUS_SENSOR_3D_GYRO"), (some 2, "MAV_SYS_STATUS_SENSOR_3D_ACCEL"),
    (some 4, "MAV_SYS_STATUS_SENSOR_3D_MAG"), (some 8, "MAV_SYS_STATUS_SENSOR_ABSOLUTE_PRESSURE"),
    (some 16, "MAV_SYS_STATUS_SENSOR_DIFFERENTIAL_PRESSURE"), (some 32, "MAV_SYS_STATUS_SENSOR_GPS"),
    (some 64, "MAV_SYS_STATUS_SENSOR_OPTICAL_FLOW"), (some 128, "MAV_SYS_STATUS_SENSOR_VISION_POSITION"),
    (some 256, "MAV_SYS_STATUS_SENSOR_LASER_POSITION"), (some 512, "MAV_SYS_STATUS_SENSOR_EXTERNAL_GROUND_TRUTH"),
    (some 1024, "MAV_SYS_STATUS_SENSOR_ANGULAR_RATE_CONTROL"),
    (some 2048, "MAV_SYS_STATUS_SENSOR_ATTITUDE_STABILIZATION"), (some 4096, "MAV_SYS_STATUS_SENSOR_YAW_POSITION"),
    (some 8192, "MAV_SYS_STATUS_SENSOR_Z_ALTITUDE_CONTROL"),
    (some 16384, "MAV_SYS_STATUS_SENSOR_XY_POSITION_CONTROL"), (some 32768, "MAV_SYS_STATUS_SENSOR_MOTOR_OUTPUTS"),
    (some 65536, "MAV_SYS_STATUS_SENSOR_RC_RECEIVER"), (some 131072, "MAV_SYS_STATUS_SENSOR_3D_GYRO2"),
    (some 262144, "MAV_SYS_STATUS_SENSOR_3D_ACCEL2"), (some 524288, "MAV_SYS_STATUS_SENSOR_3D_MAG2"),
    (some 1048576, "MAV_SYS_STATUS_GEOFENCE"), (some 2097152, "MAV_SYS_STATUS_AHRS"),
    (some 4194304, "MAV_SYS_STATUS_TERRAIN")]⟩

/-- minimal_dialect.xml:464-504 -/
def enum10 : XmlEnum := ⟨"MAV_FRAME",
  [(some 0, "MAV_FRAME_GLOBAL"), (some 1, "MAV_FRAME_LOCAL_NED"), (some 2, "MAV_FRAME_MISSION"),
    (some 3, "MAV_FRAME_GLOBAL_RELATIVE_ALT"), (some 4, "MAV_FRAME_LOCAL_ENU"), (some 5, "MAV_FRAME_GLOBAL_INT"),
    (some 6, "MAV_FRAME_GLOBAL_RELATIVE_ALT_INT"), (some 7, "MAV_FRAME_LOCAL_OFFSET_NED"),
    (some 8, "MAV_FRAME_BODY_NED"), (some 9, "MAV_FRAME_BODY_OFFSET_NED"), (some 10, "MAV_FRAME_GLOBAL_TERRAIN_ALT"),
    (some 11, "MAV_FRAME_GLOBAL_TERRAIN_ALT_INT"), (some 12, "MAV_FRAME_HCMISSION")]⟩

/-- minimal_dialect.xml:505-524 -/
def enum11 : XmlEnum := ⟨"MAVLINK_DATA_STREAM_TYPE",
  [(none, "MAVLINK_DATA_STREAM_IMG_JPEG"), (none, "MAVLINK_DATA_STREAM_IMG_BMP"),
    (none, "MAVLINK_DATA_STREAM_IMG_RAW8U"), (none, "MAVLINK_DATA_STREAM_IMG_RAW32U"),
    (none, "MAVLINK_DATA_STREAM_IMG_PGM"), (none, "MAVLINK_DATA_STREAM_IMG_PNG")]⟩

/-- minimal_dialect.xml:526-539 -/
def enum12 : XmlEnum := ⟨"FENCE_ACTION",
  [(some 0, "FENCE_ACTION_NONE"), (some 1, "FENCE_ACTION_GUIDED"), (some 2, "FENCE_ACTION_REPORT"),
    (some 3, "FENCE_ACTION_GUIDED_THR_PASS")]⟩

/-- minimal_dialect.xml:541-554 -/
def enum13 : XmlEnum := ⟨"FENCE_BREACH",
  [(some 0, "FENCE_BREACH_NONE"), (some 1, "FENCE_BREACH_MINALT"), (some 2, "FENCE_BREACH_MAXALT"),
    (some 3, "FENCE_BREACH_BOUNDARY")]⟩

/-- minimal_dialect.xml:556-563 -/
def enum14 : XmlEnum := ⟨"MAV_MOUNT_MODE",
  [(some 0, "MAV_MOUNT_MODE_RETRACT"), (some 1, "MAV_MOUNT_MODE_NEUTRAL"),
    (some 2, "MAV_MOUNT_MODE_MAVLINK_TARGETING"), (some 3, "MAV_MOUNT_MODE_RC_TARGETING"),
    (some 4, "MAV_MOUNT_MODE_GPS_POINT")]⟩

/-- minimal_dialect.xml:564-1258 -/
def enum15 : XmlEnum := ⟨"MAV_CMD",
  [(some 16, "MAV_CMD_NAV_WAYPOINT"), (some 17, "MAV_CMD_NAV_LOITER_UNLIM"), (some 18, "MAV_CMD_NAV_LOITER_TURNS"),
    (some 19, "MAV_CMD_NAV_LOITER_TIME"), (some 20, "MAV_CMD_NAV_RETURN_TO_LAUNCH"), (some 21, "MAV_CMD_NAV_LAND"),
    (some 22, "MAV_CMD_NAV_SAFETY_REGION"), (some 23, "MAV_CMD_NAV_LAND_LOCAL"),
    (some 24, "MAV_CMD_NAV_TAKEOFF_LOCAL"), (some 25, "MAV_CMD_NAV_FOLLOW"),
    (some 30, "MAV_CMD_NAV_CONTINUE_AND_CHANGE_ALT"), (some 31, "MAV_CMD_NAV_LOITER_TO_ALT"),
    (some 80, "MAV_CMD_NAV_ROI"), (some 81, "MAV_CMD_NAV_PATHPLANNING"), (some 82, "MAV_CMD_NAV_SPLINE_WAYPOINT"),
    (some 84, "MAV_CMD_NAV_VTOL_TAKEOFF"), (some 85, "MAV_CMD_NAV_VTOL_LAND"), (some 92, "MAV_CMD_NAV_GUIDED_ENABLE"),
    (some 95, "MAV_CMD_NAV_LAST"), (some 112, "MAV_CMD_CONDITION_DELAY"), (some 113, "MAV_CMD_CONDITION_CHANGE_ALT"),
    (some 114, "MAV_CMD_CONDITION_DISTANCE"), (some 115, "MAV_CMD_CONDITION_YAW"),
    (some 159, "MAV_CMD_CONDITION_LAST"), (some 176, "MAV_CMD_DO_SET_MODE"), (some 177, "MAV_CMD_DO_JUMP"),
    (some 178, "MAV_CMD_DO_CHANGE_SPEED"), (some 179, "MAV_CMD_DO_SET_HOME"), (some 180, "MAV_CMD_DO_SET_PARAMETER"),
    (some 181, "MAV_CMD_DO_SET_RELAY"), (some 182, "MAV_CMD_DO_REPEAT_RELAY"), (some 183, "MAV_CMD_DO_SET_SERVO"),
    (some 184, "MAV_CMD_DO_REPEAT_SERVO"), (some 185, "MAV_CMD_DO_FLIGHTTERMINATION"),
    (some 189, "MAV_CMD_DO_LAND_START"), (some 190, "MAV_CMD_DO_RALLY_LAND"), (some 191, "MAV_CMD_DO_GO_AROUND"),
    (some 200, "MAV_CMD_DO_CONTROL_VIDEO"), (some 201, "MAV_CMD_DO_SET_ROI"),
    (some 202, "MAV_CMD_DO_DIGICAM_CONFIGURE"), (some 203, "MAV_CMD_DO_DIGICAM_CONTROL"),
    (some 204, "MAV_CMD_DO_MOUNT_CONFIGURE"), (some 205, "MAV_CMD_DO_MOUNT_CONTROL"),
    (some 206, "MAV_CMD_DO_SET_CAM_TRIGG_DIST"), (some 207, "MAV_CMD_DO_FENCE_ENABLE"),
    (some 208, "MAV_CMD_DO_PARACHUTE"), (some 210, "MAV_CMD_DO_INVERTED_FLIGHT"),
    (some 220, "MAV_CMD_DO_MOUNT_CONTROL_QUAT"), (some 221, "MAV_CMD_DO_GUIDED_MASTER"),
    (some 222, "MAV_CMD_DO_GUIDED_LIMITS"), (some 240, "MAV_CMD_DO_LAST"),
    (some 241, "MAV_CMD_PREFLIGHT_CALIBRATION"), (some 242, "MAV_CMD_PREFLIGHT_SET_SENSOR_OFFSETS"),
    (some 243, "MAV_CMD_PREFLIGHT_UAVCAN"), (some 245, "MAV_CMD_PREFLIGHT_STORAGE"),
    (some 246, "MAV_CMD_PREFLIGHT_REBOOT_SHUTDOWN"), (some 252, "MAV_CMD_OVERRIDE_GOTO"),
    (some 300, "MAV_CMD_MISSION_START"), (some 400, "MAV_CMD_COMPONENT_ARM_DISARM"),
    (some 410, "MAV_CMD_GET_HOME_POSITION"), (some 500, "MAV_CMD_START_RX_PAIR"),
    (some 510, "MAV_CMD_GET_MESSAGE_INTERVAL"), (some 511, "MAV_CMD_SET_MESSAGE_INTERVAL"),
    (some 520, "MAV_CMD_REQUEST_AUTOPILOT_CAPABILITIES"), (some 2000, "MAV_CMD_IMAGE_START_CAPTURE"),
    (some 2001, "MAV_CMD_IMAGE_STOP_CAPTURE"), (some 2003, "MAV_CMD_DO_TRIGGER_CONTROL"),
    (some 2500, "MAV_CMD_VIDEO_START_CAPTURE"), (some 2501, "MAV_CMD_VIDEO_STOP_CAPTURE"),
    (some 2800, "MAV_CMD_PANORAMA_CREATE"), (some 3000, "MAV_CMD_DO_VTOL_TRANSITION"),
    (some 30001, "MAV_CMD_PAYLOAD_PREPARE_DEPLOY"), (some 30002, "MAV_CMD_PAYLOAD_CONTROL_DEPLOY")]⟩

/-- minimal_dialect.xml:1259-1290 -/
def enum16 : XmlEnum := ⟨"MAV_DATA_STREAM",
  [(some 0, "MAV_DATA_STREAM_ALL"), (some 1, "MAV_DATA_STREAM_RAW_SENSORS"),
    (some 2, "MAV_DATA_STREAM_EXTENDED_STATUS"), (some 3, "MAV_DATA_STREAM_RC_CHANNELS"),
    (some 4, "MAV_DATA_STREAM_RAW_CONTROLLER"), (some 6, "MAV_DATA_STREAM_POSITION"),
    (some 10, "MAV_DATA_STREAM_EXTRA1"), (some 11, "MAV_DATA_STREAM_EXTRA2"), (some 12, "MAV_DATA_STREAM_EXTRA3")]⟩

/-- minimal_dialect.xml:1291-1310 -/
def enum17 : XmlEnum := ⟨"MAV_ROI",
  [(some 0, "MAV_ROI_NONE"), (some 1, "MAV_ROI_WPNEXT"), (some 2, "MAV_ROI_WPINDEX"), (some 3, "MAV_ROI_LOCATION"),
    (some 4, "MAV_ROI_TARGET")]⟩

/-- minimal_dialect.xml:1311-1340 -/
def enum18 : XmlEnum := ⟨"MAV_CMD_ACK",
  [(none, "MAV_CMD_ACK_OK"), (none, "MAV_CMD_ACK_ERR_FAIL"), (none, "MAV_CMD_ACK_ERR_ACCESS_DENIED"),
    (none, "MAV_CMD_ACK_ERR_NOT_SUPPORTED"), (none, "MAV_CMD_ACK_ERR_COORDINATE_FRAME_NOT_SUPPORTED"),
    (none, "MAV_CMD_ACK_ERR_COORDINATES_OUT_OF_RANGE"), (none, "MAV_CMD_ACK_ERR_X_LAT_OUT_OF_RANGE"),
    (none, "MAV_CMD_ACK_ERR_Y_LON_OUT_OF_RANGE"), (none, "MAV_CMD_ACK_ERR_Z_ALT_OUT_OF_RANGE")]⟩

/-- minimal_dialect.xml:1341-1373 -/
def enum19 : XmlEnum := ⟨"MAV_PARAM_TYPE",
  [(some 1, "MAV_PARAM_TYPE_UINT8"), (some 2, "MAV_PARAM_TYPE_INT8"), (some 3, "MAV_PARAM_TYPE_UINT16"),
    (some 4, "MAV_PARAM_TYPE_INT16"), (some 5, "MAV_PARAM_TYPE_UINT32"), (some 6, "MAV_PARAM_TYPE_INT32"),
    (some 7, "MAV_PARAM_TYPE_UINT64"), (some 8, "MAV_PARAM_TYPE_INT64"), (some 9, "MAV_PARAM_TYPE_REAL32"),
    (some 10, "MAV_PARAM_TYPE_REAL64")]⟩

/-- minimal_dialect.xml:1374-1391 -/
def enum20 : XmlEnum := ⟨"MAV_RESULT",
  [(some 0, "MAV_RESULT_ACCEPTED"), (some 1, "MAV_RESULT_TEMPORARILY_REJECTED"), (some 2, "MAV_RESULT_DENIED"),
    (some 3, "MAV_RESULT_UNSUPPORTED"), (some 4, "MAV_RESULT_FAILED")]⟩

/-- minimal_dialect.xml:1392-1439 -/
def enum21 : XmlEnum := ⟨"MAV_MISSION_RESULT",
  [(some 0, "MAV_MISSION_ACCEPTED"), (some 1, "MAV_MISSION_ERROR"), (some 2, "MAV_MISSION_UNSUPPORTED_FRAME"),
    (some 3, "MAV_MISSION_UNSUPPORTED"), (some 4, "MAV_MISSION_NO_SPACE"), (some 5, "MAV_MISSION_INVALID"),
    (some 6, "MAV_MISSION_INVALID_PARAM1"), (some 7, "MAV_MISSION_INVALID_PARAM2"),
    (some 8, "MAV_MISSION_INVALID_PARAM3"), (some 9, "MAV_MISSION_INVALID_PARAM4"),
    (some 10, "MAV_MISSION_INVALID_PARAM5_X"), (some 11, "MAV_MISSION_INVALID_PARAM6_Y"),
    (some 12, "MAV_MISSION_INVALID_PARAM7"), (some 13, "MAV_MISSION_INVALID_SEQUENCE"),
    (some 14, "MAV_MISSION_DENIED")]⟩

/-- minimal_dialect.xml:1440-1466 -/
def enum22 : XmlEnum := ⟨"MAV_SEVERITY",
  [(some 0, "MAV_SEVERITY_EMERGENCY"), (some 1, "MAV_SEVERITY_ALERT"), (some 2, "MAV_SEVERITY_CRITICAL"),
    (some 3, "MAV_SEVERITY_ERROR"), (some 4, "MAV_SEVERITY_WARNING"), (some 5, "MAV_SEVERITY_NOTICE"),
    (some 6, "MAV_SEVERITY_INFO"), (some 7, "MAV_SEVERITY_DEBUG")]⟩

/-- minimal_dialect.xml:1467-1487 -/
def enum23 : XmlEnum := ⟨"MAV_POWER_STATUS",
  [(some 1, "MAV_POWER_STATUS_BRICK_VALID"), (some 2, "MAV_POWER_STATUS_SERVO_VALID"),
    (some 4, "MAV_POWER_STATUS_USB_CONNECTED"), (some 8, "MAV_POWER_STATUS_PERIPH_OVERCURRENT"),
    (some 16, "MAV_POWER_STATUS_PERIPH_HIPOWER_OVERCURRENT"), (some 32, "MAV_POWER_STATUS_CHANGED")]⟩

/-- minimal_dialect.xml:1488-1505 -/
def enum24 : XmlEnum := ⟨"SERIAL_CONTROL_DEV",
  [(some 0, "SERIAL_CONTROL_DEV_TELEM1"), (some 1, "SERIAL_CONTROL_DEV_TELEM2"), (some 2, "SERIAL_CONTROL_DEV_GPS1"),
    (some 3, "SERIAL_CONTROL_DEV_GPS2"), (some 10, "SERIAL_CONTROL_DEV_SHELL")]⟩

/-- minimal_dialect.xml:1506-1523 -/
def enum25 : XmlEnum := ⟨"SERIAL_CONTROL_FLAG",
  [(some 1, "SERIAL_CONTROL_FLAG_REPLY"), (some 2, "SERIAL_CONTROL_FLAG_RESPOND"),
    (some 4, "SERIAL_CONTROL_FLAG_EXCLUSIVE"), (some 8, "SERIAL_CONTROL_FLAG_BLOCKING"),
    (some 16, "SERIAL_CONTROL_FLAG_MULTI")]⟩

/-- minimal_dialect.xml:1524-1535 -/
def enum26 : XmlEnum := ⟨"MAV_DISTANCE_SENSOR",
  [(some 0, "MAV_DISTANCE_SENSOR_LASER"), (some 1, "MAV_DISTANCE_SENSOR_ULTRASOUND"),
    (some 2, "MAV_DISTANCE_SENSOR_INFRARED")]⟩

/-- minimal_dialect.xml:1536-1655 -/
def enum27 : XmlEnum := ⟨"MAV_SENSOR_ORIENTATION",
  [(some 0, "MAV_SENSOR_ROTATION_NONE"), (some 1, "MAV_SENSOR_ROTATION_YAW_45"),
    (some 2, "MAV_SENSOR_ROTATION_YAW_90"), (some 3, "MAV_SENSOR_ROTATION_YAW_135"),
    (some 4, "MAV_SENSOR_ROTATION_YAW_180"), (some 5, "MAV_SENSOR_ROTATION_YAW_225"),
    (some 6, "MAV_SENSOR_ROTATION_YAW_270"), (some 7, "MAV_SENSOR_ROTATION_YAW_315"),
    (some 8, "MAV_SENSOR_ROTATION_ROLL_180"), (some 9, "MAV_SENSOR_ROTATION_ROLL_180_YAW_45"),
    (some 10, "MAV_SENSOR_ROTATION_ROLL_180_YAW_90"), (some 11, "MAV_SENSOR_ROTATION_ROLL_180_YAW_135"),
    (some 12, "MAV_SENSOR_ROTATION_PITCH_180"), (some 13, "MAV_SENSOR_ROTATION_ROLL_180_YAW_225"),
    (some 14, "MAV_SENSOR_ROTATION_ROLL_180_YAW_270"), (some 15, "MAV_SENSOR_ROTATION_ROLL_180_YAW_315"),
    (some 16, "MAV_SENSOR_ROTATION_ROLL_90"), (some 17, "MAV_SENSOR_ROTATION_ROLL_90_YAW_45"),
    (some 18, "MAV_SENSOR_ROTATION_ROLL_90_YAW_90"), (some 19, "MAV_SENSOR_ROTATION_ROLL_90_YAW_135"),
    (some 20, "MAV_SENSOR_ROTATION_ROLL_270"), (some 21, "MAV_SENSOR_ROTATION_ROLL_270_YAW_45"),
    (some 22, "MAV_SENSOR_ROTATION_ROLL_270_YAW_90"), (some 23, "MAV_SENSOR_ROTATION_ROLL_270_YAW_135"),
    (some 24, "MAV_SENSOR_ROTATION_PITCH_90"), (some 25, "MAV_SENSOR_ROTATION_PITCH_270"),
    (some 26, "MAV_SENSOR_ROTATION_PITCH_180_YAW_90"), (some 27, "MAV_SENSOR_ROTATION_PITCH_180_YAW_270"),
    (some 28, "MAV_SENSOR_ROTATION_ROLL_90_PITCH_90"), (some 29, "MAV_SENSOR_ROTATION_ROLL_180_PITCH_90"),
    (some 30, "MAV_SENSOR_ROTATION_ROLL_270_PITCH_90"), (some 31, "MAV_SENSOR_ROTATION_ROLL_90_PITCH_180"),
    (some 32, "MAV_SENSOR_ROTATION_ROLL_270_PITCH_180"), (some 33, "MAV_SENSOR_ROTATION_ROLL_90_PITCH_270"),
    (some 34, "MAV_SENSOR_ROTATION_ROLL_180_PITCH_270"), (some 35, "MAV_SENSOR_ROTATION_ROLL_270_PITCH_270"),
    (some 36, "MAV_SENSOR_ROTATION_ROLL_90_PITCH_180_YAW_90"), (some 37, "MAV_SENSOR_ROTATION_ROLL_90_YAW_270"),
    (some 38, "MAV_SENSOR_ROTATION_ROLL_315_PITCH_315_YAW_315")]⟩

/-- minimal_dialect.xml:1656-1697 -/
def enum28 : XmlEnum := ⟨"MAV_PROTOCOL_CAPABILITY",
  [(some 1, "MAV_PROTOCOL_CAPABILITY_MISSION_FLOAT"), (some 2, "MAV_PROTOCOL_CAPABILITY_PARAM_FLOAT"),
    (some 4, "MAV_PROTOCOL_CAPABILITY_MISSION_INT"), (some 8, "MAV_PROTOCOL_CAPABILITY_COMMAND_INT"),
    (some 16, "MAV_PROTOCOL_CAPABILITY_PARAM_UNION"), (some 32, "MAV_PROTOCOL_CAPABILITY_FTP"),
    (some 64, "MAV_PROTOCOL_CAPABILITY_SET_ATTITUDE_TARGET"),
    (some 128, "MAV_PROTOCOL_CAPABILITY_SET_POSITION_TARGET_LOCAL_NED"),
    (some 256, "MAV_PROTOCOL_CAPABILITY_SET_POSITION_TARGET_GLOBAL_INT"),
    (some 512, "MAV_PROTOCOL_CAPABILITY_TERRAIN"), (some 1024, "MAV_PROTOCOL_CAPABILITY_SET_ACTUATOR_TARGET"),
    (some 2048, "MAV_PROTOCOL_CAPABILITY_FLIGHT_TERMINATION"),
    (some 4096, "MAV_PROTOCOL_CAPABILITY_COMPASS_CALIBRATION")]⟩

/-- minimal_dialect.xml:1698-1715 -/
def enum29 : XmlEnum := ⟨"MAV_ESTIMATOR_TYPE",
  [(some 1, "MAV_ESTIMATOR_TYPE_NAIVE"), (some 2, "MAV_ESTIMATOR_TYPE_VISION"), (some 3, "MAV_ESTIMATOR_TYPE_VIO"),
    (some 4, "MAV_ESTIMATOR_TYPE_GPS"), (some 5, "MAV_ESTIMATOR_TYPE_GPS_INS")]⟩

/-- minimal_dialect.xml:1716-1733 -/
def enum30 : XmlEnum := ⟨"MAV_BATTERY_TYPE",
  [(some 0, "MAV_BATTERY_TYPE_UNKNOWN"), (some 1, "MAV_BATTERY_TYPE_LIPO"), (some 2, "MAV_BATTERY_TYPE_LIFE"),
    (some 3, "MAV_BATTERY_TYPE_LION"), (some 4, "MAV_BATTERY_TYPE_NIMH")]⟩

/-- minimal_dialect.xml:1734-1751 -/
def enum31 : XmlEnum := ⟨"MAV_BATTERY_FUNCTION",
  [(some 0, "MAV_BATTERY_FUNCTION_UNKNOWN"), (some 1, "MAV_BATTERY_FUNCTION_ALL"),
    (some 2, "MAV_BATTERY_FUNCTION_PROPULSION"), (some 3, "MAV_BATTERY_FUNCTION_AVIONICS"),
    (some 4, "MAV_BATTERY_TYPE_PAYLOAD")]⟩

/-- minimal_dialect.xml:1752-1769 -/
def enum32 : XmlEnum := ⟨"MAV_VTOL_STATE",
  [(some 0, "MAV_VTOL_STATE_UNDEFINED"), (some 1, "MAV_VTOL_STATE_TRANSITION_TO_FW"),
    (some 2, "MAV_VTOL_STATE_TRANSITION_TO_MC"), (some 3, "MAV_VTOL_STATE_MC"), (some 4, "MAV_VTOL_STATE_FW")]⟩

/-- minimal_dialect.xml:1770-1781 -/
def enum33 : XmlEnum := ⟨"MAV_LANDED_STATE",
  [(some 0, "MAV_LANDED_STATE_UNDEFINED"), (some 1, "MAV_LANDED_STATE_ON_GROUND"), (some 2, "MAV_LANDED_STATE_IN_AIR")]⟩

/-- minimal_dialect.xml:1782-1790 -/
def enum34 : XmlEnum := ⟨"ADSB_ALTITUDE_TYPE",
  [(some 0, "ADSB_ALTITUDE_TYPE_PRESSURE_QNH"), (some 1, "ADSB_ALTITUDE_TYPE_GEOMETRIC")]⟩

/-- minimal_dialect.xml:1791-1813 -/
def enum35 : XmlEnum := ⟨"ADSB_EMITTER_TYPE",
  [(some 0, "ADSB_EMITTER_TYPE_NO_INFO"), (some 1, "ADSB_EMITTER_TYPE_LIGHT"), (some 2, "ADSB_EMITTER_TYPE_SMALL"),
    (some 3, "ADSB_EMITTER_TYPE_LARGE"), (some 4, "ADSB_EMITTER_TYPE_HIGH_VORTEX_LARGE"),
    (some 5, "ADSB_EMITTER_TYPE_HEAVY"), (some 6, "ADSB_EMITTER_TYPE_HIGHLY_MANUV"),
    (some 7, "ADSB_EMITTER_TYPE_ROTOCRAFT"), (some 8, "ADSB_EMITTER_TYPE_UNASSIGNED"),
    (some 9, "ADSB_EMITTER_TYPE_GLIDER"), (some 10, "ADSB_EMITTER_TYPE_LIGHTER_AIR"),
    (some 11, "ADSB_EMITTER_TYPE_PARACHUTE"), (some 12, "ADSB_EMITTER_TYPE_ULTRA_LIGHT"),
    (some 13, "ADSB_EMITTER_TYPE_UNASSIGNED2"), (some 14, "ADSB_EMITTER_TYPE_UAV"),
    (some 15, "ADSB_EMITTER_TYPE_SPACE"), (some 16, "ADSB_EMITTER_TYPE_UNASSGINED3"),
    (some 17, "ADSB_EMITTER_TYPE_EMERGENCY_SURFACE"), (some 18, "ADSB_EMITTER_TYPE_SERVICE_SURFACE"),
    (some 19, "ADSB_EMITTER_TYPE_POINT_OBSTACLE")]⟩

/-- minimal_dialect.xml:1814-1823 -/
def enum36 : XmlEnum := ⟨"ADSB_FLAGS",
  [(some 1, "ADSB_FLAGS_VALID_COORDS"), (some 2, "ADSB_FLAGS_VALID_ALTITUDE"), (some 4, "ADSB_FLAGS_VALID_HEADING"),
    (some 8, "ADSB_FLAGS_VALID_VELOCITY"), (some 16, "ADSB_FLAGS_VALID_CALLSIGN"),
    (some 32, "ADSB_FLAGS_VALID_SQUAWK"), (some 64, "ADSB_FLAGS_SIMULATED")]⟩

/-- The enumerations of minimal_dialect.xml. -/
def enums : List XmlEnum :=
  [enum0, enum1, enum2, enum3, enum4, enum5, enum6, enum7, enum8, enum9, enum10, enum11, enum12, enum13, enum14,
    enum15, enum16, enum17, enum18, enum19, enum20, enum21, enum22, enum23, enum24, enum25, enum26, enum27, enum28,
    enum29, enum30, enum31, enum32, enum33, enum34, enum35, enum36]

/-- minimal_dialect.py:270-309 -/
def py0 : PyEnum := ⟨"MAV_AUTOPILOT",
  [(0, "MAV_AUTOPILOT_GENERIC"), (1, "MAV_AUTOPILOT_RESERVED"), (2, "MAV_AUTOPILOT_SLUGS"),
    (3, "MAV_AUTOPILOT_ARDUPILOTMEGA"), (4, "MAV_AUTOPILOT_OPENPILOT"), (5, "MAV_AUTOPILOT_GENERIC_WAYPOINTS_ONLY"),
    (6, "MAV_AUTOPILOT_GENERIC_WAYPOINTS_AND_SIMPLE_NAVIGATION_ONLY"), (7, "MAV_AUTOPILOT_GENERIC_MISSION_FULL"),
    (8, "MAV_AUTOPILOT_INVALID"), (9, "MAV_AUTOPILOT_PPZ"), (10, "MAV_AUTOPILOT_UDB"), (11, "MAV_AUTOPILOT_FP"),
    (12, "MAV_AUTOPILOT_PX4"), (13, "MAV_AUTOPILOT_SMACCMPILOT"), (14, "MAV_AUTOPILOT_AUTOQUAD"),
    (15, "MAV_AUTOPILOT_ARMAZILA"), (16, "MAV_AUTOPILOT_AEROB"), (17, "MAV_AUTOPILOT_ASLUAV"),
    (18, "MAV_AUTOPILOT_ENUM_END")]⟩

/-- minimal_dialect.py:312-372 -/
def py1 : PyEnum := ⟨"MAV_TYPE",
  [(0, "MAV_TYPE_GENERIC"), (1, "MAV_TYPE_FIXED_WING"), (2, "MAV_TYPE_QUADROTOR"), (3, "MAV_TYPE_COAXIAL"),
    (4, "MAV_TYPE_HELICOPTER"), (5, "MAV_TYPE_ANTENNA_TRACKER"), (6, "MAV_TYPE_GCS"), (7, "MAV_TYPE_AIRSHIP"),
    (8, "MAV_TYPE_FREE_BALLOON"), (9, "MAV_TYPE_ROCKET"), (10, "MAV_TYPE_GROUND_ROVER"),
    (11, "MAV_TYPE_SURFACE_BOAT"), (12, "MAV_TYPE_SUBMARINE"), (13, "MAV_TYPE_HEXAROTOR"), (14, "MAV_TYPE_OCTOROTOR"),
    (15, "MAV_TYPE_TRICOPTER"), (16, "MAV_TYPE_FLAPPING_WING"), (17, "MAV_TYPE_KITE"),
    (18, "MAV_TYPE_ONBOARD_CONTROLLER"), (19, "MAV_TYPE_VTOL_DUOROTOR"), (20, "MAV_TYPE_VTOL_QUADROTOR"),
    (21, "MAV_TYPE_VTOL_TILTROTOR"), (22, "MAV_TYPE_VTOL_RESERVED2"), (23, "MAV_TYPE_VTOL_RESERVED3"),
    (24, "MAV_TYPE_VTOL_RESERVED4"), (25, "MAV_TYPE_VTOL_RESERVED5"), (26, "MAV_TYPE_GIMBAL"), (27, "MAV_TYPE_ADSB"),
    (28, "MAV_TYPE_ENUM_END")]⟩

/-- minimal_dialect.py:375-387 -/
def py2 : PyEnum := ⟨"FIRMWARE_VERSION_TYPE",
  [(0, "FIRMWARE_VERSION_TYPE_DEV"), (64, "FIRMWARE_VERSION_TYPE_ALPHA"), (128, "FIRMWARE_VERSION_TYPE_BETA"),
    (192, "FIRMWARE_VERSION_TYPE_RC"), (255, "FIRMWARE_VERSION_TYPE_OFFICIAL"),
    (256, "FIRMWARE_VERSION_TYPE_ENUM_END")]⟩

/-- minimal_dialect.py:390-417 -/
def py3 : PyEnum := ⟨"MAV_MODE_FLAG",
  [(1, "MAV_MODE_FLAG_CUSTOM_MODE_ENABLED"), (2, "MAV_MODE_FLAG_TEST_ENABLED"), (4, "MAV_MODE_FLAG_AUTO_ENABLED"),
    (8, "MAV_MODE_FLAG_GUIDED_ENABLED"), (16, "MAV_MODE_FLAG_STABILIZE_ENABLED"), (32, "MAV_MODE_FLAG_HIL_ENABLED"),
    (64, "MAV_MODE_FLAG_MANUAL_INPUT_ENABLED"), (128, "MAV_MODE_FLAG_SAFETY_ARMED"), (129, "MAV_MODE_FLAG_ENUM_END")]⟩

/-- minimal_dialect.py:420-438 -/
def py4 : PyEnum := ⟨"MAV_MODE_FLAG_DECODE_POSITION",
  [(1, "MAV_MODE_FLAG_DECODE_POSITION_CUSTOM_MODE"), (2, "MAV_MODE_FLAG_DECODE_POSITION_TEST"),
    (4, "MAV_MODE_FLAG_DECODE_POSITION_AUTO"), (8, "MAV_MODE_FLAG_DECODE_POSITION_GUIDED"),
    (16, "MAV_MODE_FLAG_DECODE_POSITION_STABILIZE"), (32, "MAV_MODE_FLAG_DECODE_POSITION_HIL"),
    (64, "MAV_MODE_FLAG_DECODE_POSITION_MANUAL"), (128, "MAV_MODE_FLAG_DECODE_POSITION_SAFETY"),
    (129, "MAV_MODE_FLAG_DECODE_POSITION_ENUM_END")]⟩

/-- minimal_dialect.py:441-451 -/
def py5 : PyEnum := ⟨"MAV_GOTO",
  [(0, "MAV_GOTO_DO_HOLD"), (1, "MAV_GOTO_DO_CONTINUE"), (2, "MAV_GOTO_HOLD_AT_CURRENT_POSITION"),
    (3, "MAV_GOTO_HOLD_AT_SPECIFIED_POSITION"), (4, "MAV_GOTO_ENUM_END")]⟩

/-- minimal_dialect.py:454-490 -/
def py6 : PyEnum := ⟨"MAV_MODE",
  [(0, "MAV_MODE_PREFLIGHT"), (32, "MAV_MODE_STOP"), (64, "MAV_MODE_MANUAL_DISARMED"), (66, "MAV_MODE_TEST_DISARMED"),
    (80, "MAV_MODE_STABILIZE_DISARMED"), (88, "MAV_MODE_GUIDED_DISARMED"), (92, "MAV_MODE_AUTO_DISARMED"),
    (192, "MAV_MODE_MANUAL_ARMED"), (194, "MAV_MODE_TEST_ARMED"), (208, "MAV_MODE_STABILIZE_ARMED"),
    (216, "MAV_MODE_GUIDED_ARMED"), (220, "MAV_MODE_AUTO_ARMED"), (221, "MAV_MODE_ENUM_END")]⟩

/-- minimal_dialect.py:493-513 -/
def py7 : PyEnum := ⟨"MAV_STATE",
  [(0, "MAV_STATE_UNINIT"), (1, "MAV_STATE_BOOT"), (2, "MAV_STATE_CALIBRATING"), (3, "MAV_STATE_STANDBY"),
    (4, "MAV_STATE_ACTIVE"), (5, "MAV_STATE_CRITICAL"), (6, "MAV_STATE_EMERGENCY"), (7, "MAV_STATE_POWEROFF"),
    (8, "MAV_STATE_ENUM_END")]⟩

/-- minimal_dialect.py:516-576 -/
def py8 : PyEnum := ⟨"MAV_COMPONENT",
  [(0, "MAV_COMP_ID_ALL"), (100, "MAV_COMP_ID_CAMERA"), (140, "MAV_COMP_ID_SERVO1"), (141, "MAV_COMP_ID_SERVO2"),
    (142, "MAV_COMP_ID_SERVO3"), (143, "MAV_COMP_ID_SERVO4"), (144, "MAV_COMP_ID_SERVO5"),
    (145, "MAV_COMP_ID_SERVO6"), (146, "MAV_COMP_ID_SERVO7"), (147, "MAV_COMP_ID_SERVO8"),
    (148, "MAV_COMP_ID_SERVO9"), (149, "MAV_COMP_ID_SERVO10"), (150, "MAV_COMP_ID_SERVO11"),
    (151, "MAV_COMP_ID_SERVO12"), (152, "MAV_COMP_ID_SERVO13"), (153, "MAV_COMP_ID_SERVO14"),
    (154, "MAV_COMP_ID_GIMBAL"), (155, "MAV_COMP_ID_LOG"), (156, "MAV_COMP_ID_ADSB"), (180, "MAV_COMP_ID_MAPPER"),
    (190, "MAV_COMP_ID_MISSIONPLANNER"), (195, "MAV_COMP_ID_PATHPLANNER"), (200, "MAV_COMP_ID_IMU"),
    (201, "MAV_COMP_ID_IMU_2"), (202, "MAV_COMP_ID_IMU_3"), (220, "MAV_COMP_ID_GPS"), (240, "MAV_COMP_ID_UDP_BRIDGE"),
    (241, "MAV_COMP_ID_UART_BRIDGE"), (250, "MAV_COMP_ID_SYSTEM_CONTROL"), (251, "MAV_COMPONENT_ENUM_END")]⟩

/-- minimal_dialect.py:579-627 -/
def py9 : PyEnum := ⟨"MAV_SYS_STATUS_SENSOR",
  [(1, "MAV_SYS_STATUS_SENSOR_3D_GYRO"), (2, "MAV_SYS_STATUS_SENSOR_3D_ACCEL"), (4, "MAV_SYS_STATUS_SENSOR_3D_MAG"),
    (8, "MAV_SYS_STATUS_SENSOR_ABSOLUTE_PRESSURE"), (16, "MAV_SYS_STATUS_SENSOR_DIFFERENTIAL_PRESSURE"),
    (32, "MAV_SYS_STATUS_SENSOR_GPS"), (64, "MAV_SYS_STATUS_SENSOR_OPTICAL_FLOW"),
    (128, "MAV_SYS_STATUS_SENSOR_VISION_POSITION"), (256, "MAV_SYS_STATUS_SENSOR_LASER_POSITION"),
    (512, "MAV_SYS_STATUS_SENSOR_EXTERNAL_GROUND_TRUTH"), (1024, "MAV_SYS_STATUS_SENSOR_ANGULAR_RATE_CONTROL"),
    (2048, "MAV_SYS_STATUS_SENSOR_ATTITUDE_STABILIZATION"), (4096, "MAV_SYS_STATUS_SENSOR_YAW_POSITION"),
    (8192, "MAV_SYS_STATUS_SENSOR_Z_ALTITUDE_CONTROL"), (16384, "MAV_SYS_STATUS_SENSOR_XY_POSITION_CONTROL"),
    (32768, "MAV_SYS_STATUS_SENSOR_MOTOR_OUTPUTS"), (65536, "MAV_SYS_STATUS_SENSOR_RC_RECEIVER"),
    (131072, "MAV_SYS_STATUS_SENSOR_3D_GYRO2"), (262144, "MAV_SYS_STATUS_SENSOR_3D_ACCEL2"),
    (524288, "MAV_SYS_STATUS_SENSOR_3D_MAG2"), (1048576, "MAV_SYS_STATUS_GEOFENCE"), (2097152, "MAV_SYS_STATUS_AHRS"),
    (4194304, "MAV_SYS_STATUS_TERRAIN"), (4194305, "MAV_SYS_STATUS_SENSOR_ENUM_END")]⟩

/-- minimal_dialect.py:630-697 -/
def py10 : PyEnum := ⟨"MAV_FRAME",
  [(0, "MAV_FRAME_GLOBAL"), (1, "MAV_FRAME_LOCAL_NED"), (2, "MAV_FRAME_MISSION"),
    (3, "MAV_FRAME_GLOBAL_RELATIVE_ALT"), (4, "MAV_FRAME_LOCAL_ENU"), (5, "MAV_FRAME_GLOBAL_INT"),
    (6, "MAV_FRAME_GLOBAL_RELATIVE_ALT_INT"), (7, "MAV_FRAME_LOCAL_OFFSET_NED"), (8, "MAV_FRAME_BODY_NED"),
    (9, "MAV_FRAME_BODY_OFFSET_NED"), (10, "MAV_FRAME_GLOBAL_TERRAIN_ALT"), (11, "MAV_FRAME_GLOBAL_TERRAIN_ALT_INT"),
    (12, "MAV_FRAME_HCMISSION"), (13, "MAV_FRAME_ENUM_END")]⟩

/-- minimal_dialect.py:700-714 -/
def py11 : PyEnum := ⟨"MAVLINK_DATA_STREAM_TYPE",
  [(1, "MAVLINK_DATA_STREAM_IMG_JPEG"), (2, "MAVLINK_DATA_STREAM_IMG_BMP"), (3, "MAVLINK_DATA_STREAM_IMG_RAW8U"),
    (4, "MAVLINK_DATA_STREAM_IMG_RAW32U"), (5, "MAVLINK_DATA_STREAM_IMG_PGM"), (6, "MAVLINK_DATA_STREAM_IMG_PNG"),
    (7, "MAVLINK_DATA_STREAM_TYPE_ENUM_END")]⟩

/-- minimal_dialect.py:717-728 -/
def py12 : PyEnum := ⟨"FENCE_ACTION",
  [(0, "FENCE_ACTION_NONE"), (1, "FENCE_ACTION_GUIDED"), (2, "FENCE_ACTION_REPORT"),
    (3, "FENCE_ACTION_GUIDED_THR_PASS"), (4, "FENCE_ACTION_ENUM_END")]⟩

/-- minimal_dialect.py:731-741 -/
def py13 : PyEnum := ⟨"FENCE_BREACH",
  [(0, "FENCE_BREACH_NONE"), (1, "FENCE_BREACH_MINALT"), (2, "FENCE_BREACH_MAXALT"), (3, "FENCE_BREACH_BOUNDARY"),
    (4, "FENCE_BREACH_ENUM_END")]⟩

/-- minimal_dialect.py:744-759 -/
def py14 : PyEnum := ⟨"MAV_MOUNT_MODE",
  [(0, "MAV_MOUNT_MODE_RETRACT"), (1, "MAV_MOUNT_MODE_NEUTRAL"), (2, "MAV_MOUNT_MODE_MAVLINK_TARGETING"),
    (3, "MAV_MOUNT_MODE_RC_TARGETING"), (4, "MAV_MOUNT_MODE_GPS_POINT"), (5, "MAV_MOUNT_MODE_ENUM_END")]⟩

/-- minimal_dialect.py:762-1472 -/
def py15 : PyEnum := ⟨"MAV_CMD",
  [(16, "MAV_CMD_NAV_WAYPOINT"), (17, "MAV_CMD_NAV_LOITER_UNLIM"), (18, "MAV_CMD_NAV_LOITER_TURNS"),
    (19, "MAV_CMD_NAV_LOITER_TIME"), (20, "MAV_CMD_NAV_RETURN_TO_LAUNCH"), (21, "MAV_CMD_NAV_LAND"),
    (22, "MAV_CMD_NAV_SAFETY_REGION"), (23, "MAV_CMD_NAV_LAND_LOCAL"), (24, "MAV_CMD_NAV_TAKEOFF_LOCAL"),
    (25, "MAV_CMD_NAV_FOLLOW"), (30, "MAV_CMD_NAV_CONTINUE_AND_CHANGE_ALT"), (31, "MAV_CMD_NAV_LOITER_TO_ALT"),
    (80, "MAV_CMD_NAV_ROI"), (81, "MAV_CMD_NAV_PATHPLANNING"), (82, "MAV_CMD_NAV_SPLINE_WAYPOINT"),
    (84, "MAV_CMD_NAV_VTOL_TAKEOFF"), (85, "MAV_CMD_NAV_VTOL_LAND"), (92, "MAV_CMD_NAV_GUIDED_ENABLE"),
    (95, "MAV_CMD_NAV_LAST"), (112, "MAV_CMD_CONDITION_DELAY"), (113, "MAV_CMD_CONDITION_CHANGE_ALT"),
    (114, "MAV_CMD_CONDITION_DISTANCE"), (115, "MAV_CMD_CONDITION_YAW"), (159, "MAV_CMD_CONDITION_LAST"),
    (176, "MAV_CMD_DO_SET_MODE"), (177, "MAV_CMD_DO_JUMP"), (178, "MAV_CMD_DO_CHANGE_SPEED"),
    (179, "MAV_CMD_DO_SET_HOME"), (180, "MAV_CMD_DO_SET_PARAMETER"), (181, "MAV_CMD_DO_SET_RELAY"),
    (182, "MAV_CMD_DO_REPEAT_RELAY"), (183, "MAV_CMD_DO_SET_SERVO"), (184, "MAV_CMD_DO_REPEAT_SERVO"),
    (185, "MAV_CMD_DO_FLIGHTTERMINATION"), (189, "MAV_CMD_DO_LAND_START"), (190, "MAV_CMD_DO_RALLY_LAND"),
    (191, "MAV_CMD_DO_GO_AROUND"), (200, "MAV_CMD_DO_CONTROL_VIDEO"), (201, "MAV_CMD_DO_SET_ROI"),
    (202, "MAV_CMD_DO_DIGICAM_CONFIGURE"), (203, "MAV_CMD_DO_DIGICAM_CONTROL"), (204, "MAV_CMD_DO_MOUNT_CONFIGURE"),
    (205, "MAV_CMD_DO_MOUNT_CONTROL"), (206, "MAV_CMD_DO_SET_CAM_TRIGG_DIST"), (207, "MAV_CMD_DO_FENCE_ENABLE"),
    (208, "MAV_CMD_DO_PARACHUTE"), (210, "MAV_CMD_DO_INVERTED_FLIGHT"), (220, "MAV_CMD_DO_MOUNT_CONTROL_QUAT"),
    (221, "MAV_CMD_DO_GUIDED_MASTER"), (222, "MAV_CMD_DO_GUIDED_LIMITS"), (240, "MAV_CMD_DO_LAST"),
    (241, "MAV_CMD_PREFLIGHT_CALIBRATION"), (242, "MAV_CMD_PREFLIGHT_SET_SENSOR_OFFSETS"),
    (243, "MAV_CMD_PREFLIGHT_UAVCAN"), (245, "MAV_CMD_PREFLIGHT_STORAGE"), (246, "MAV_CMD_PREFLIGHT_REBOOT_SHUTDOWN"),
    (252, "MAV_CMD_OVERRIDE_GOTO"), (300, "MAV_CMD_MISSION_START"), (400, "MAV_CMD_COMPONENT_ARM_DISARM"),
    (410, "MAV_CMD_GET_HOME_POSITION"), (500, "MAV_CMD_START_RX_PAIR"), (510, "MAV_CMD_GET_MESSAGE_INTERVAL"),
    (511, "MAV_CMD_SET_MESSAGE_INTERVAL"), (520, "MAV_CMD_REQUEST_AUTOPILOT_CAPABILITIES"),
    (2000, "MAV_CMD_IMAGE_START_CAPTURE"), (2001, "MAV_CMD_IMAGE_STOP_CAPTURE"), (2003, "MAV_CMD_DO_TRIGGER_CONTROL"),
    (2500, "MAV_CMD_VIDEO_START_CAPTURE"), (2501, "MAV_CMD_VIDEO_STOP_CAPTURE"), (2800, "MAV_CMD_PANORAMA_CREATE"),
    (3000, "MAV_CMD_DO_VTOL_TRANSITION"), (30001, "MAV_CMD_PAYLOAD_PREPARE_DEPLOY"),
    (30002, "MAV_CMD_PAYLOAD_CONTROL_DEPLOY"), (30003, "MAV_CMD_ENUM_END")]⟩

/-- minimal_dialect.py:1475-1496 -/
def py16 : PyEnum := ⟨"MAV_DATA_STREAM",
  [(0, "MAV_DATA_STREAM_ALL"), (1, "MAV_DATA_STREAM_RAW_SENSORS"), (2, "MAV_DATA_STREAM_EXTENDED_STATUS"),
    (3, "MAV_DATA_STREAM_RC_CHANNELS"), (4, "MAV_DATA_STREAM_RAW_CONTROLLER"), (6, "MAV_DATA_STREAM_POSITION"),
    (10, "MAV_DATA_STREAM_EXTRA1"), (11, "MAV_DATA_STREAM_EXTRA2"), (12, "MAV_DATA_STREAM_EXTRA3"),
    (13, "MAV_DATA_STREAM_ENUM_END")]⟩

/-- minimal_dialect.py:1499-1511 -/
def py17 : PyEnum := ⟨"MAV_ROI",
  [(0, "MAV_ROI_NONE"), (1, "MAV_ROI_WPNEXT"), (2, "MAV_ROI_WPINDEX"), (3, "MAV_ROI_LOCATION"), (4, "MAV_ROI_TARGET"),
    (5, "MAV_ROI_ENUM_END")]⟩

/-- minimal_dialect.py:1514-1603 -/
def py18 : PyEnum := ⟨"MAV_CMD_ACK",
  [(1, "MAV_CMD_ACK_OK"), (2, "MAV_CMD_ACK_ERR_FAIL"), (3, "MAV_CMD_ACK_ERR_ACCESS_DENIED"),
    (4, "MAV_CMD_ACK_ERR_NOT_SUPPORTED"), (5, "MAV_CMD_ACK_ERR_COORDINATE_FRAME_NOT_SUPPORTED"),
    (6, "MAV_CMD_ACK_ERR_COORDINATES_OUT_OF_RANGE"), (7, "MAV_CMD_ACK_ERR_X_LAT_OUT_OF_RANGE"),
    (8, "MAV_CMD_ACK_ERR_Y_LON_OUT_OF_RANGE"), (9, "MAV_CMD_ACK_ERR_Z_ALT_OUT_OF_RANGE"), (10, "MAV_CMD_ACK_ENUM_END")]⟩

/-- minimal_dialect.py:1606-1628 -/
def py19 : PyEnum := ⟨"MAV_PARAM_TYPE",
  [(1, "MAV_PARAM_TYPE_UINT8"), (2, "MAV_PARAM_TYPE_INT8"), (3, "MAV_PARAM_TYPE_UINT16"), (4, "MAV_PARAM_TYPE_INT16"),
    (5, "MAV_PARAM_TYPE_UINT32"), (6, "MAV_PARAM_TYPE_INT32"), (7, "MAV_PARAM_TYPE_UINT64"),
    (8, "MAV_PARAM_TYPE_INT64"), (9, "MAV_PARAM_TYPE_REAL32"), (10, "MAV_PARAM_TYPE_REAL64"),
    (11, "MAV_PARAM_TYPE_ENUM_END")]⟩

/-- minimal_dialect.py:1631-1643 -/
def py20 : PyEnum := ⟨"MAV_RESULT",
  [(0, "MAV_RESULT_ACCEPTED"), (1, "MAV_RESULT_TEMPORARILY_REJECTED"), (2, "MAV_RESULT_DENIED"),
    (3, "MAV_RESULT_UNSUPPORTED"), (4, "MAV_RESULT_FAILED"), (5, "MAV_RESULT_ENUM_END")]⟩

/-- minimal_dialect.py:1646-1678 -/
def py21 : PyEnum := ⟨"MAV_MISSION_RESULT",
  [(0, "MAV_MISSION_ACCEPTED"), (1, "MAV_MISSION_ERROR"), (2, "MAV_MISSION_UNSUPPORTED_FRAME"),
    (3, "MAV_MISSION_UNSUPPORTED"), (4, "MAV_MISSION_NO_SPACE"), (5, "MAV_MISSION_INVALID"),
    (6, "MAV_MISSION_INVALID_PARAM1"), (7, "MAV_MISSION_INVALID_PARAM2"), (8, "MAV_MISSION_INVALID_PARAM3"),
    (9, "MAV_MISSION_INVALID_PARAM4"), (10, "MAV_MISSION_INVALID_PARAM5_X"), (11, "MAV_MISSION_INVALID_PARAM6_Y"),
    (12, "MAV_MISSION_INVALID_PARAM7"), (13, "MAV_MISSION_INVALID_SEQUENCE"), (14, "MAV_MISSION_DENIED"),
    (15, "MAV_MISSION_RESULT_ENUM_END")]⟩

/-- minimal_dialect.py:1681-1706 -/
def py22 : PyEnum := ⟨"MAV_SEVERITY",
  [(0, "MAV_SEVERITY_EMERGENCY"), (1, "MAV_SEVERITY_ALERT"), (2, "MAV_SEVERITY_CRITICAL"), (3, "MAV_SEVERITY_ERROR"),
    (4, "MAV_SEVERITY_WARNING"), (5, "MAV_SEVERITY_NOTICE"), (6, "MAV_SEVERITY_INFO"), (7, "MAV_SEVERITY_DEBUG"),
    (8, "MAV_SEVERITY_ENUM_END")]⟩

/-- minimal_dialect.py:1709-1723 -/
def py23 : PyEnum := ⟨"MAV_POWER_STATUS",
  [(1, "MAV_POWER_STATUS_BRICK_VALID"), (2, "MAV_POWER_STATUS_SERVO_VALID"), (4, "MAV_POWER_STATUS_USB_CONNECTED"),
    (8, "MAV_POWER_STATUS_PERIPH_OVERCURRENT"), (16, "MAV_POWER_STATUS_PERIPH_HIPOWER_OVERCURRENT"),
    (32, "MAV_POWER_STATUS_CHANGED"), (33, "MAV_POWER_STATUS_ENUM_END")]⟩

/-- minimal_dialect.py:1726-1738 -/
def py24 : PyEnum := ⟨"SERIAL_CONTROL_DEV",
  [(0, "SERIAL_CONTROL_DEV_TELEM1"), (1, "SERIAL_CONTROL_DEV_TELEM2"), (2, "SERIAL_CONTROL_DEV_GPS1"),
    (3, "SERIAL_CONTROL_DEV_GPS2"), (10, "SERIAL_CONTROL_DEV_SHELL"), (11, "SERIAL_CONTROL_DEV_ENUM_END")]⟩

/-- minimal_dialect.py:1741-1758 -/
def py25 : PyEnum := ⟨"SERIAL_CONTROL_FLAG",
  [(1, "SERIAL_CONTROL_FLAG_REPLY"), (2, "SERIAL_CONTROL_FLAG_RESPOND"), (4, "SERIAL_CONTROL_FLAG_EXCLUSIVE"),
    (8, "SERIAL_CONTROL_FLAG_BLOCKING"), (16, "SERIAL_CONTROL_FLAG_MULTI"), (17, "SERIAL_CONTROL_FLAG_ENUM_END")]⟩

/-- minimal_dialect.py:1761-1769 -/
def py26 : PyEnum := ⟨"MAV_DISTANCE_SENSOR",
  [(0, "MAV_DISTANCE_SENSOR_LASER"), (1, "MAV_DISTANCE_SENSOR_ULTRASOUND"), (2, "MAV_DISTANCE_SENSOR_INFRARED"),
    (3, "MAV_DISTANCE_SENSOR_ENUM_END")]⟩

/-- minimal_dialect.py:1772-1852 -/
def py27 : PyEnum := ⟨"MAV_SENSOR_ORIENTATION",
  [(0, "MAV_SENSOR_ROTATION_NONE"), (1, "MAV_SENSOR_ROTATION_YAW_45"), (2, "MAV_SENSOR_ROTATION_YAW_90"),
    (3, "MAV_SENSOR_ROTATION_YAW_135"), (4, "MAV_SENSOR_ROTATION_YAW_180"), (5, "MAV_SENSOR_ROTATION_YAW_225"),
    (6, "MAV_SENSOR_ROTATION_YAW_270"), (7, "MAV_SENSOR_ROTATION_YAW_315"), (8, "MAV_SENSOR_ROTATION_ROLL_180"),
    (9, "MAV_SENSOR_ROTATION_ROLL_180_YAW_45"), (10, "MAV_SENSOR_ROTATION_ROLL_180_YAW_90"),
    (11, "MAV_SENSOR_ROTATION_ROLL_180_YAW_135"), (12, "MAV_SENSOR_ROTATION_PITCH_180"),
    (13, "MAV_SENSOR_ROTATION_ROLL_180_YAW_225"), (14, "MAV_SENSOR_ROTATION_ROLL_180_YAW_270"),
    (15, "MAV_SENSOR_ROTATION_ROLL_180_YAW_315"), (16, "MAV_SENSOR_ROTATION_ROLL_90"),
    (17, "MAV_SENSOR_ROTATION_ROLL_90_YAW_45"), (18, "MAV_SENSOR_ROTATION_ROLL_90_YAW_90"),
    (19, "MAV_SENSOR_ROTATION_ROLL_90_YAW_135"), (20, "MAV_SENSOR_ROTATION_ROLL_270"),
    (21, "MAV_SENSOR_ROTATION_ROLL_270_YAW_45"), (22, "MAV_SENSOR_ROTATION_ROLL_270_YAW_90"),
    (23, "MAV_SENSOR_ROTATION_ROLL_270_YAW_135"), (24, "MAV_SENSOR_ROTATION_PITCH_90"),
    (25, "MAV_SENSOR_ROTATION_PITCH_270"), (26, "MAV_SENSOR_ROTATION_PITCH_180_YAW_90"),
    (27, "MAV_SENSOR_ROTATION_PITCH_180_YAW_270"), (28, "MAV_SENSOR_ROTATION_ROLL_90_PITCH_90"),
    (29, "MAV_SENSOR_ROTATION_ROLL_180_PITCH_90"), (30, "MAV_SENSOR_ROTATION_ROLL_270_PITCH_90"),
    (31, "MAV_SENSOR_ROTATION_ROLL_90_PITCH_180"), (32, "MAV_SENSOR_ROTATION_ROLL_270_PITCH_180"),
    (33, "MAV_SENSOR_ROTATION_ROLL_90_PITCH_270"), (34, "MAV_SENSOR_ROTATION_ROLL_180_PITCH_270"),
    (35, "MAV_SENSOR_ROTATION_ROLL_270_PITCH_270"), (36, "MAV_SENSOR_ROTATION_ROLL_90_PITCH_180_YAW_90"),
    (37, "MAV_SENSOR_ROTATION_ROLL_90_YAW_270"), (38, "MAV_SENSOR_ROTATION_ROLL_315_PITCH_315_YAW_315"),
    (39, "MAV_SENSOR_ORIENTATION_ENUM_END")]⟩

/-- minimal_dialect.py:1855-1885 -/
def py28 : PyEnum := ⟨"MAV_PROTOCOL_CAPABILITY",
  [(1, "MAV_PROTOCOL_CAPABILITY_MISSION_FLOAT"), (2, "MAV_PROTOCOL_CAPABILITY_PARAM_FLOAT"),
    (4, "MAV_PROTOCOL_CAPABILITY_MISSION_INT"), (8, "MAV_PROTOCOL_CAPABILITY_COMMAND_INT"),
    (16, "MAV_PROTOCOL_CAPABILITY_PARAM_UNION"), (32, "MAV_PROTOCOL_CAPABILITY_FTP"),
    (64, "MAV_PROTOCOL_CAPABILITY_SET_ATTITUDE_TARGET"),
    (128, "MAV_PROTOCOL_CAPABILITY_SET_POSITION_TARGET_LOCAL_NED"),
    (256, "MAV_PROTOCOL_CAPABILITY_SET_POSITION_TARGET_GLOBAL_INT"), (512, "MAV_PROTOCOL_CAPABILITY_TERRAIN"),
    (1024, "MAV_PROTOCOL_CAPABILITY_SET_ACTUATOR_TARGET"), (2048, "MAV_PROTOCOL_CAPABILITY_FLIGHT_TERMINATION"),
    (4096, "MAV_PROTOCOL_CAPABILITY_COMPASS_CALIBRATION"), (4097, "MAV_PROTOCOL_CAPABILITY_ENUM_END")]⟩

/-- minimal_dialect.py:1888-1900 -/
def py29 : PyEnum := ⟨"MAV_ESTIMATOR_TYPE",
  [(1, "MAV_ESTIMATOR_TYPE_NAIVE"), (2, "MAV_ESTIMATOR_TYPE_VISION"), (3, "MAV_ESTIMATOR_TYPE_VIO"),
    (4, "MAV_ESTIMATOR_TYPE_GPS"), (5, "MAV_ESTIMATOR_TYPE_GPS_INS"), (6, "MAV_ESTIMATOR_TYPE_ENUM_END")]⟩

/-- minimal_dialect.py:1903-1915 -/
def py30 : PyEnum := ⟨"MAV_BATTERY_TYPE",
  [(0, "MAV_BATTERY_TYPE_UNKNOWN"), (1, "MAV_BATTERY_TYPE_LIPO"), (2, "MAV_BATTERY_TYPE_LIFE"),
    (3, "MAV_BATTERY_TYPE_LION"), (4, "MAV_BATTERY_TYPE_NIMH"), (5, "MAV_BATTERY_TYPE_ENUM_END")]⟩

/-- minimal_dialect.py:1918-1930 -/
def py31 : PyEnum := ⟨"MAV_BATTERY_FUNCTION",
  [(0, "MAV_BATTERY_FUNCTION_UNKNOWN"), (1, "MAV_BATTERY_FUNCTION_ALL"), (2, "MAV_BATTERY_FUNCTION_PROPULSION"),
    (3, "MAV_BATTERY_FUNCTION_AVIONICS"), (4, "MAV_BATTERY_TYPE_PAYLOAD"), (5, "MAV_BATTERY_FUNCTION_ENUM_END")]⟩

/-- minimal_dialect.py:1933-1945 -/
def py32 : PyEnum := ⟨"MAV_VTOL_STATE",
  [(0, "MAV_VTOL_STATE_UNDEFINED"), (1, "MAV_VTOL_STATE_TRANSITION_TO_FW"), (2, "MAV_VTOL_STATE_TRANSITION_TO_MC"),
    (3, "MAV_VTOL_STATE_MC"), (4, "MAV_VTOL_STATE_FW"), (5, "MAV_VTOL_STATE_ENUM_END")]⟩

/-- minimal_dialect.py:1948-1956 -/
def py33 : PyEnum := ⟨"MAV_LANDED_STATE",
  [(0, "MAV_LANDED_STATE_UNDEFINED"), (1, "MAV_LANDED_STATE_ON_GROUND"), (2, "MAV_LANDED_STATE_IN_AIR"),
    (3, "MAV_LANDED_STATE_ENUM_END")]⟩

/-- minimal_dialect.py:1959-1965 -/
def py34 : PyEnum := ⟨"ADSB_ALTITUDE_TYPE",
  [(0, "ADSB_ALTITUDE_TYPE_PRESSURE_QNH"), (1, "ADSB_ALTITUDE_TYPE_GEOMETRIC"), (2, "ADSB_ALTITUDE_TYPE_ENUM_END")]⟩

/-- minimal_dialect.py:1968-2010 -/
def py35 : PyEnum := ⟨"ADSB_EMITTER_TYPE",
  [(0, "ADSB_EMITTER_TYPE_NO_INFO"), (1, "ADSB_EMITTER_TYPE_LIGHT"), (2, "ADSB_EMITTER_TYPE_SMALL"),
    (3, "ADSB_EMITTER_TYPE_LARGE"), (4, "ADSB_EMITTER_TYPE_HIGH_VORTEX_LARGE"), (5, "ADSB_EMITTER_TYPE_HEAVY"),
    (6, "ADSB_EMITTER_TYPE_HIGHLY_MANUV"), (7, "ADSB_EMITTER_TYPE_ROTOCRAFT"), (8, "ADSB_EMITTER_TYPE_UNASSIGNED"),
    (9, "ADSB_EMITTER_TYPE_GLIDER"), (10, "ADSB_EMITTER_TYPE_LIGHTER_AIR"), (11, "ADSB_EMITTER_TYPE_PARACHUTE"),
    (12, "ADSB_EMITTER_TYPE_ULTRA_LIGHT"), (13, "ADSB_EMITTER_TYPE_UNASSIGNED2"), (14, "ADSB_EMITTER_TYPE_UAV"),
    (15, "ADSB_EMITTER_TYPE_SPACE"), (16, "ADSB_EMITTER_TYPE_UNASSGINED3"),
    (17, "ADSB_EMITTER_TYPE_EMERGENCY_SURFACE"), (18, "ADSB_EMITTER_TYPE_SERVICE_SURFACE"),
    (19, "ADSB_EMITTER_TYPE_POINT_OBSTACLE"), (20, "ADSB_EMITTER_TYPE_ENUM_END")]⟩

/-- minimal_dialect.py:2013-2029 -/
def py36 : PyEnum := ⟨"ADSB_FLAGS",
  [(1, "ADSB_FLAGS_VALID_COORDS"), (2, "ADSB_FLAGS_VALID_ALTITUDE"), (4, "ADSB_FLAGS_VALID_HEADING"),
    (8, "ADSB_FLAGS_VALID_VELOCITY"), (16, "ADSB_FLAGS_VALID_CALLSIGN"), (32, "ADSB_FLAGS_VALID_SQUAWK"),
    (64, "ADSB_FLAGS_SIMULATED"), (65, "ADSB_FLAGS_ENUM_END")]⟩

/-- `enums` of minimal_dialect.py, lines 270-2029. -/
def pyEnums : List PyEnum :=
  [py0, py1, py2, py3, py4, py5, py6, py7, py8, py9, py10, py11, py12, py13, py14, py15, py16, py17, py18, py19, py20,
    py21, py22, py23, py24, py25, py26, py27, py28, py29, py30, py31, py32, py33, py34, py35, py36]

/-- The assignments `NAME = value` that precede the entries of `enums`, minimal_dialect.py:270-2029. -/
def constants : List (String × Nat) :=
  [("MAV_AUTOPILOT_GENERIC", 0), ("MAV_AUTOPILOT_RESERVED", 1), ("MAV_AUTOPILOT_SLUGS", 2),
    ("MAV_AUTOPILOT_ARDUPILOTMEGA", 3), ("MAV_AUTOPILOT_OPENPILOT", 4), ("MAV_AUTOPILOT_GENERIC_WAYPOINTS_ONLY", 5),
    ("MAV_AUTOPILOT_GENERIC_WAYPOINTS_AND_SIMPLE_NAVIGATION_ONLY", 6), ("MAV_AUTOPILOT_GENERIC_MISSION_FULL", 7),
    ("MAV_AUTOPILOT_INVALID", 8), ("MAV_AUTOPILOT_PPZ", 9), ("MAV_AUTOPILOT_UDB", 10), ("MAV_AUTOPILOT_FP", 11),
    ("MAV_AUTOPILOT_PX4", 12), ("MAV_AUTOPILOT_SMACCMPILOT", 13), ("MAV_AUTOPILOT_AUTOQUAD", 14),
    ("MAV_AUTOPILOT_ARMAZILA", 15), ("MAV_AUTOPILOT_AEROB", 16), ("MAV_AUTOPILOT_ASLUAV", 17),
    ("MAV_AUTOPILOT_ENUM_END", 18), ("MAV_TYPE_GENERIC", 0), ("MAV_TYPE_FIXED_WING", 1), ("MAV_TYPE_QUADROTOR", 2),
    ("MAV_TYPE_COAXIAL", 3), ("MAV_TYPE_HELICOPTER", 4), ("MAV_TYPE_ANTENNA_TRACKER", 5), ("MAV_TYPE_GCS", 6),
    ("MAV_TYPE_AIRSHIP", 7), ("MAV_TYPE_FREE_BALLOON", 8), ("MAV_TYPE_ROCKET", 9), ("MAV_TYPE_GROUND_ROVER", 10),
    ("MAV_TYPE_SURFACE_BOAT", 11), ("MAV_TYPE_SUBMARINE", 12), ("MAV_TYPE_HEXAROTOR", 13), ("MAV_TYPE_OCTOROTOR", 14),
    ("MAV_TYPE_TRICOPTER", 15), ("MAV_TYPE_FLAPPING_WING", 16), ("MAV_TYPE_KITE", 17),
    ("MAV_TYPE_ONBOARD_CONTROLLER", 18), ("MAV_TYPE_VTOL_DUOROTOR", 19), ("MAV_TYPE_VTOL_QUADROTOR", 20),
    ("MAV_TYPE_VTOL_TILTROTOR", 21), ("MAV_TYPE_VTOL_RESERVED2", 22), ("MAV_TYPE_VTOL_RESERVED3", 23),
    ("MAV_TYPE_VTOL_RESERVED4", 24), ("MAV_TYPE_VTOL_RESERVED5", 25), ("MAV_TYPE_GIMBAL", 26), ("MAV_TYPE_ADSB", 27),
    ("MAV_TYPE_ENUM_END", 28), ("FIRMWARE_VERSION_TYPE_DEV", 0), ("FIRMWARE_VERSION_TYPE_ALPHA", 64),
    ("FIRMWARE_VERSION_TYPE_BETA", 128), ("FIRMWARE_VERSION_TYPE_RC", 192), ("FIRMWARE_VERSION_TYPE_OFFICIAL", 255),
    ("FIRMWARE_VERSION_TYPE_ENUM_END", 256), ("MAV_MODE_FLAG_CUSTOM_MODE_ENABLED", 1),
    ("MAV_MODE_FLAG_TEST_ENABLED", 2), ("MAV_MODE_FLAG_AUTO_ENABLED", 4), ("MAV_MODE_FLAG_GUIDED_ENABLED", 8),
    ("MAV_MODE_FLAG_STABILIZE_ENABLED", 16), ("MAV_MODE_FLAG_HIL_ENABLED", 32),
    ("MAV_MODE_FLAG_MANUAL_INPUT_ENABLED", 64), ("MAV_MODE_FLAG_SAFETY_ARMED", 128), ("MAV_MODE_FLAG_ENUM_END", 129),
    ("MAV_MODE_FLAG_DECODE_POSITION_CUSTOM_MODE", 1), ("MAV_MODE_FLAG_DECODE_POSITION_TEST", 2),
    ("MAV_MODE_FLAG_DECODE_POSITION_AUTO", 4), ("MAV_MODE_FLAG_DECODE_POSITION_GUIDED", 8),
    ("MAV_MODE_FLAG_DECODE_POSITION_STABILIZE", 16), ("MAV_MODE_FLAG_DECODE_POSITION_HIL", 32),
    ("MAV_MODE_FLAG_DECODE_POSITION_MANUAL", 64), ("MAV_MODE_FLAG_DECODE_POSITION_SAFETY", 128),
    ("MAV_MODE_FLAG_DECODE_POSITION_ENUM_END", 129), ("MAV_GOTO_DO_HOLD", 0), ("MAV_GOTO_DO_CONTINUE", 1),
    ("MAV_GOTO_HOLD_AT_CURRENT_POSITION", 2), ("MAV_GOTO_HOLD_AT_SPECIFIED_POSITION", 3), ("MAV_GOTO_ENUM_END", 4),
    ("MAV_MODE_PREFLIGHT", 0), ("MAV_MODE_STOP", 32), ("MAV_MODE_MANUAL_DISARMED", 64),
    ("MAV_MODE_TEST_DISARMED", 66), ("MAV_MODE_STABILIZE_DISARMED", 80), ("MAV_MODE_GUIDED_DISARMED", 88),
    ("MAV_MODE_AUTO_DISARMED", 92), ("MAV_MODE_MANUAL_ARMED", 192), ("MAV_MODE_TEST_ARMED", 194),
    ("MAV_MODE_STABILIZE_ARMED", 208), ("MAV_MODE_GUIDED_ARMED", 216), ("MAV_MODE_AUTO_ARMED", 220),
    ("MAV_MODE_ENUM_END", 221), ("MAV_STATE_UNINIT", 0), ("MAV_STATE_BOOT", 1), ("MAV_STATE_CALIBRATING", 2),
    ("MAV_STATE_STANDBY", 3), ("MAV_STATE_ACTIVE", 4), ("MAV_STATE_CRITICAL", 5), ("MAV_STATE_EMERGENCY", 6),
    ("MAV_STATE_POWEROFF", 7), ("MAV_STATE_ENUM_END", 8), ("MAV_COMP_ID_ALL", 0), ("MAV_COMP_ID_CAMERA", 100),
    ("MAV_COMP_ID_SERVO1", 140), ("MAV_COMP_ID_SERVO2", 141), ("MAV_COMP_ID_SERVO3", 142),
    ("MAV_COMP_ID_SERVO4", 143), ("MAV_COMP_ID_SERVO5", 144), ("MAV_COMP_ID_SERVO6", 145),
    ("MAV_COMP_ID_SERVO7", 146), ("MAV_COMP_ID_SERVO8", 147), ("MAV_COMP_ID_SERVO9", 148),
    ("MAV_COMP_ID_SERVO10", 149), ("MAV_COMP_ID_SERVO11", 150), ("MAV_COMP_ID_SERVO12", 151),
    ("MAV_COMP_ID_SERVO13", 152), ("MAV_COMP_ID_SERVO14", 153), ("MAV_COMP_ID_GIMBAL", 154), ("MAV_COMP_ID_LOG", 155),
    ("MAV_COMP_ID_ADSB", 156), ("MAV_COMP_ID_MAPPER", 180), ("MAV_COMP_ID_MISSIONPLANNER", 190),
    ("MAV_COMP_ID_PATHPLANNER", 195), ("MAV_COMP_ID_IMU", 200), ("MAV_COMP_ID_IMU_2", 201),
    ("MAV_COMP_ID_IMU_3", 202), ("MAV_COMP_ID_GPS", 220), ("MAV_COMP_ID_UDP_BRIDGE", 240),
    ("MAV_COMP_ID_UART_BRIDGE", 241), ("MAV_COMP_ID_SYSTEM_CONTROL", 250), ("MAV_COMPONENT_ENUM_END", 251),
    ("MAV_SYS_STATUS_SENSOR_3D_GYRO", 1), ("MAV_SYS_STATUS_SENSOR_3D_ACCEL", 2), ("MAV_SYS_STATUS_SENSOR_3D_MAG", 4),
    ("MAV_SYS_STATUS_SENSOR_ABSOLUTE_PRESSURE", 8), ("MAV_SYS_STATUS_SENSOR_DIFFERENTIAL_PRESSURE", 16),
    ("MAV_SYS_STATUS_SENSOR_GPS", 32), ("MAV_SYS_STATUS_SENSOR_OPTICAL_FLOW", 64),
    ("MAV_SYS_STATUS_SENSOR_VISION_POSITION", 128), ("MAV_SYS_STATUS_SENSOR_LASER_POSITION", 256),
    ("MAV_SYS_STATUS_SENSOR_EXTERNAL_GROUND_TRUTH", 512), ("MAV_SYS_STATUS_SENSOR_ANGULAR_RATE_CONTROL", 1024),
    ("MAV_SYS_STATUS_SENSOR_ATTITUDE_STABILIZATION", 2048), ("MAV_SYS_STATUS_SENSOR_YAW_POSITION", 4096),
    ("MAV_SYS_STATUS_SENSOR_Z_ALTITUDE_CONTROL", 8192), ("MAV_SYS_STATUS_SENSOR_XY_POSITION_CONTROL", 16384),
    ("MAV_SYS_STATUS_SENSOR_MOTOR_OUTPUTS", 32768), ("MAV_SYS_STATUS_SENSOR_RC_RECEIVER", 65536),
    ("MAV_SYS_STATUS_SENSOR_3D_GYRO2", 131072), ("MAV_SYS_STATUS_SENSOR_3D_ACCEL2", 262144),
    ("MAV_SYS_STATUS_SENSOR_3D_MAG2", 524288), ("MAV_SYS_STATUS_GEOFENCE", 1048576), ("MAV_SYS_STATUS_AHRS", 2097152),
    ("MAV_SYS_STATUS_TERRAIN", 4194304), ("MAV_SYS_STATUS_SENSOR_ENUM_END", 4194305), ("MAV_FRAME_GLOBAL", 0),
    ("MAV_FRAME_LOCAL_NED", 1), ("MAV_FRAME_MISSION", 2), ("MAV_FRAME_GLOBAL_RELATIVE_ALT", 3),
    ("MAV_FRAME_LOCAL_ENU", 4), ("MAV_FRAME_GLOBAL_INT", 5), ("MAV_FRAME_GLOBAL_RELATIVE_ALT_INT", 6),
    ("MAV_FRAME_LOCAL_OFFSET_NED", 7), ("MAV_FRAME_BODY_NED", 8), ("MAV_FRAME_BODY_OFFSET_NED", 9),
    ("MAV_FRAME_GLOBAL_TERRAIN_ALT", 10), ("MAV_FRAME_GLOBAL_TERRAIN_ALT_INT", 11), ("MAV_FRAME_HCMISSION", 12),
    ("MAV_FRAME_ENUM_END", 13), ("MAVLINK_DATA_STREAM_IMG_JPEG", 1), ("MAVLINK_DATA_STREAM_IMG_BMP", 2),
    ("MAVLINK_DATA_STREAM_IMG_RAW8U", 3), ("MAVLINK_DATA_STREAM_IMG_RAW32U", 4), ("MAVLINK_DATA_STREAM_IMG_PGM", 5),
    ("MAVLINK_DATA_STREAM_IMG_PNG", 6), ("MAVLINK_DATA_STREAM_TYPE_ENUM_END", 7), ("FENCE_ACTION_NONE", 0),
    ("FENCE_ACTION_GUIDED", 1), ("FENCE_ACTION_REPORT", 2), ("FENCE_ACTION_GUIDED_THR_PASS", 3),
    ("FENCE_ACTION_ENUM_END", 4), ("FENCE_BREACH_NONE", 0), ("FENCE_BREACH_MINALT", 1), ("FENCE_BREACH_MAXALT", 2),
    ("FENCE_BREACH_BOUNDARY", 3), ("FENCE_BREACH_ENUM_END", 4), ("MAV_MOUNT_MODE_RETRACT", 0),
    ("MAV_MOUNT_MODE_NEUTRAL", 1), ("MAV_MOUNT_MODE_MAVLINK_TARGETING", 2), ("MAV_MOUNT_MODE_RC_TARGETING", 3),
    ("MAV_MOUNT_MODE_GPS_POINT", 4), ("MAV_MOUNT_MODE_ENUM_END", 5), ("MAV_CMD_NAV_WAYPOINT", 16),
    ("MAV_CMD_NAV_LOITER_UNLIM", 17), ("MAV_CMD_NAV_LOITER_TURNS", 18), ("MAV_CMD_NAV_LOITER_TIME", 19),
    ("MAV_CMD_NAV_RETURN_TO_LAUNCH", 20), ("MAV_CMD_NAV_LAND", 21), ("MAV_CMD_NAV_SAFETY_REGION", 22),
    ("MAV_CMD_NAV_LAND_LOCAL", 23), ("MAV_CMD_NAV_TAKEOFF_LOCAL", 24), ("MAV_CMD_NAV_FOLLOW", 25),
    ("MAV_CMD_NAV_CONTINUE_AND_CHANGE_ALT", 30), ("MAV_CMD_NAV_LOITER_TO_ALT", 31), ("MAV_CMD_NAV_ROI", 80),
    ("MAV_CMD_NAV_PATHPLANNING", 81), ("MAV_CMD_NAV_SPLINE_WAYPOINT", 82), ("MAV_CMD_NAV_VTOL_TAKEOFF", 84),
    ("MAV_CMD_NAV_VTOL_LAND", 85), ("MAV_CMD_NAV_GUIDED_ENABLE", 92), ("MAV_CMD_NAV_LAST", 95),
    ("MAV_CMD_CONDITION_DELAY", 112), ("MAV_CMD_CONDITION_CHANGE_ALT", 113), ("MAV_CMD_CONDITION_DISTANCE", 114),
    ("MAV_CMD_CONDITION_YAW", 115), ("MAV_CMD_CONDITION_LAST", 159), ("MAV_CMD_DO_SET_MODE", 176),
    ("MAV_CMD_DO_JUMP", 177), ("MAV_CMD_DO_CHANGE_SPEED", 178), ("MAV_CMD_DO_SET_HOME", 179),
    ("MAV_CMD_DO_SET_PARAMETER", 180), ("MAV_CMD_DO_SET_RELAY", 181), ("MAV_CMD_DO_REPEAT_RELAY", 182),
    ("MAV_CMD_DO_SET_SERVO", 183), ("MAV_CMD_DO_REPEAT_SERVO", 184), ("MAV_CMD_DO_FLIGHTTERMINATION", 185),
    ("MAV_CMD_DO_LAND_START", 189), ("MAV_CMD_DO_RALLY_LAND", 190), ("MAV_CMD_DO_GO_AROUND", 191),
    ("MAV_CMD_DO_CONTROL_VIDEO", 200), ("MAV_CMD_DO_SET_ROI", 201), ("MAV_CMD_DO_DIGICAM_CONFIGURE", 202),
    ("MAV_CMD_DO_DIGICAM_CONTROL", 203), ("MAV_CMD_DO_MOUNT_CONFIGURE", 204), ("MAV_CMD_DO_MOUNT_CONTROL", 205),
    ("MAV_CMD_DO_SET_CAM_TRIGG_DIST", 206), ("MAV_CMD_DO_FENCE_ENABLE", 207), ("MAV_CMD_DO_PARACHUTE", 208),
    ("MAV_CMD_DO_INVERTED_FLIGHT", 210), ("MAV_CMD_DO_MOUNT_CONTROL_QUAT", 220), ("MAV_CMD_DO_GUIDED_MASTER", 221),
    ("MAV_CMD_DO_GUIDED_LIMITS", 222), ("MAV_CMD_DO_LAST", 240), ("MAV_CMD_PREFLIGHT_CALIBRATION", 241),
    ("MAV_CMD_PREFLIGHT_SET_SENSOR_OFFSETS", 242), ("MAV_CMD_PREFLIGHT_UAVCAN", 243),
    ("MAV_CMD_PREFLIGHT_STORAGE", 245), ("MAV_CMD_PREFLIGHT_REBOOT_SHUTDOWN", 246), ("MAV_CMD_OVERRIDE_GOTO", 252),
    ("MAV_CMD_MISSION_START", 300), ("MAV_CMD_COMPONENT_ARM_DISARM", 400), ("MAV_CMD_GET_HOME_POSITION", 410),
    ("MAV_CMD_START_RX_PAIR", 500), ("MAV_CMD_GET_MESSAGE_INTERVAL", 510), ("MAV_CMD_SET_MESSAGE_INTERVAL", 511),
    ("MAV_CMD_REQUEST_AUTOPILOT_CAPABILITIES", 520), ("MAV_CMD_IMAGE_START_CAPTURE", 2000),
    ("MAV_CMD_IMAGE_STOP_CAPTURE", 2001), ("MAV_CMD_DO_TRIGGER_CONTROL", 2003), ("MAV_CMD_VIDEO_START_CAPTURE", 2500),
    ("MAV_CMD_VIDEO_STOP_CAPTURE", 2501), ("MAV_CMD_PANORAMA_CREATE", 2800), ("MAV_CMD_DO_VTOL_TRANSITION", 3000),
    ("MAV_CMD_PAYLOAD_PREPARE_DEPLOY", 30001), ("MAV_CMD_PAYLOAD_CONTROL_DEPLOY", 30002), ("MAV_CMD_ENUM_END", 30003),
    ("MAV_DATA_STREAM_ALL", 0), ("MAV_DATA_STREAM_RAW_SENSORS", 1), ("MAV_DATA_STREAM_EXTENDED_STATUS", 2),
    ("MAV_DATA_STREAM_RC_CHANNELS", 3), ("MAV_DATA_STREAM_RAW_CONTROLLER", 4), ("MAV_DATA_STREAM_POSITION", 6),
    ("MAV_DATA_STREAM_EXTRA1", 10), ("MAV_DATA_STREAM_EXTRA2", 11), ("MAV_DATA_STREAM_EXTRA3", 12),
    ("MAV_DATA_STREAM_ENUM_END", 13), ("MAV_ROI_NONE", 0), ("MAV_ROI_WPNEXT", 1), ("MAV_ROI_WPINDEX", 2),
    ("MAV_ROI_LOCATION", 3), ("MAV_ROI_TARGET", 4), ("MAV_ROI_ENUM_END", 5), ("MAV_CMD_ACK_OK", 1),
    ("MAV_CMD_ACK_ERR_FAIL", 2), ("MAV_CMD_ACK_ERR_ACCESS_DENIED", 3), ("MAV_CMD_ACK_ERR_NOT_SUPPORTED", 4),
    ("MAV_CMD_ACK_ERR_COORDINATE_FRAME_NOT_SUPPORTED", 5), ("MAV_CMD_ACK_ERR_COORDINATES_OUT_OF_RANGE", 6),
    ("MAV_CMD_ACK_ERR_X_LAT_OUT_OF_RANGE", 7), ("MAV_CMD_ACK_ERR_Y_LON_OUT_OF_RANGE", 8),
    ("MAV_CMD_ACK_ERR_Z_ALT_OUT_OF_RANGE", 9), ("MAV_CMD_ACK_ENUM_END", 10), ("MAV_PARAM_TYPE_UINT8", 1),
    ("MAV_PARAM_TYPE_INT8", 2), ("MAV_PARAM_TYPE_UINT16", 3), ("MAV_PARAM_TYPE_INT16", 4),
    ("MAV_PARAM_TYPE_UINT32", 5), ("MAV_PARAM_TYPE_INT32", 6), ("MAV_PARAM_TYPE_UINT64", 7),
    ("MAV_PARAM_TYPE_INT64", 8), ("MAV_PARAM_TYPE_REAL32", 9), ("MAV_PARAM_TYPE_REAL64", 10),
    ("MAV_PARAM_TYPE_ENUM_END", 11), ("MAV_RESULT_ACCEPTED", 0), ("MAV_RESULT_TEMPORARILY_REJECTED", 1),
    ("MAV_RESULT_DENIED", 2), ("MAV_RESULT_UNSUPPORTED", 3), ("MAV_RESULT_FAILED", 4), ("MAV_RESULT_ENUM_END", 5),
    ("MAV_MISSION_ACCEPTED", 0), ("MAV_MISSION_ERROR", 1), ("MAV_MISSION_UNSUPPORTED_FRAME", 2),
    ("MAV_MISSION_UNSUPPORTED", 3), ("MAV_MISSION_NO_SPACE", 4), ("MAV_MISSION_INVALID", 5),
    ("MAV_MISSION_INVALID_PARAM1", 6), ("MAV_MISSION_INVALID_PARAM2", 7), ("MAV_MISSION_INVALID_PARAM3", 8),
    ("MAV_MISSION_INVALID_PARAM4", 9), ("MAV_MISSION_INVALID_PARAM5_X", 10), ("MAV_MISSION_INVALID_PARAM6_Y", 11),
    ("MAV_MISSION_INVALID_PARAM7", 12), ("MAV_MISSION_INVALID_SEQUENCE", 13), ("MAV_MISSION_DENIED", 14),
    ("MAV_MISSION_RESULT_ENUM_END", 15), ("MAV_SEVERITY_EMERGENCY", 0), ("MAV_SEVERITY_ALERT", 1),
    ("MAV_SEVERITY_CRITICAL", 2), ("MAV_SEVERITY_ERROR", 3), ("MAV_SEVERITY_WARNING", 4), ("MAV_SEVERITY_NOTICE", 5),
    ("MAV_SEVERITY_INFO", 6), ("MAV_SEVERITY_DEBUG", 7), ("MAV_SEVERITY_ENUM_END", 8),
    ("MAV_POWER_STATUS_BRICK_VALID", 1), ("MAV_POWER_STATUS_SERVO_VALID", 2), ("MAV_POWER_STATUS_USB_CONNECTED", 4),
    ("MAV_POWER_STATUS_PERIPH_OVERCURRENT", 8), ("MAV_POWER_STATUS_PERIPH_HIPOWER_OVERCURRENT", 16),
    ("MAV_POWER_STATUS_CHANGED", 32), ("MAV_POWER_STATUS_ENUM_END", 33), ("SERIAL_CONTROL_DEV_TELEM1", 0),
    ("SERIAL_CONTROL_DEV_TELEM2", 1), ("SERIAL_CONTROL_DEV_GPS1", 2), ("SERIAL_CONTROL_DEV_GPS2", 3),
    ("SERIAL_CONTROL_DEV_SHELL", 10), ("SERIAL_CONTROL_DEV_ENUM_END", 11), ("SERIAL_CONTROL_FLAG_REPLY", 1),
    ("SERIAL_CONTROL_FLAG_RESPOND", 2), ("SERIAL_CONTROL_FLAG_EXCLUSIVE", 4), ("SERIAL_CONTROL_FLAG_BLOCKING", 8),
    ("SERIAL_CONTROL_FLAG_MULTI", 16), ("SERIAL_CONTROL_FLAG_ENUM_END", 17), ("MAV_DISTANCE_SENSOR_LASER", 0),
    ("MAV_DISTANCE_SENSOR_ULTRASOUND", 1), ("MAV_DISTANCE_SENSOR_INFRARED", 2), ("MAV_DISTANCE_SENSOR_ENUM_END", 3),
    ("MAV_SENSOR_ROTATION_NONE", 0), ("MAV_SENSOR_ROTATION_YAW_45", 1), ("MAV_SENSOR_ROTATION_YAW_90", 2),
    ("MAV_SENSOR_ROTATION_YAW_135", 3), ("MAV_SENSOR_ROTATION_YAW_180", 4), ("MAV_SENSOR_ROTATION_YAW_225", 5),
    ("MAV_SENSOR_ROTATION_YAW_270", 6), ("MAV_SENSOR_ROTATION_YAW_315", 7), ("MAV_SENSOR_ROTATION_ROLL_180", 8),
    ("MAV_SENSOR_ROTATION_ROLL_180_YAW_45", 9), ("MAV_SENSOR_ROTATION_ROLL_180_YAW_90", 10),
    ("MAV_SENSOR_ROTATION_ROLL_180_YAW_135", 11), ("MAV_SENSOR_ROTATION_PITCH_180", 12),
    ("MAV_SENSOR_ROTATION_ROLL_180_YAW_225", 13), ("MAV_SENSOR_ROTATION_ROLL_180_YAW_270", 14),
    ("MAV_SENSOR_ROTATION_ROLL_180_YAW_315", 15), ("MAV_SENSOR_ROTATION_ROLL_90", 16),
    ("MAV_SENSOR_ROTATION_ROLL_90_YAW_45", 17), ("MAV_SENSOR_ROTATION_ROLL_90_YAW_90", 18),
    ("MAV_SENSOR_ROTATION_ROLL_90_YAW_135", 19), ("MAV_SENSOR_ROTATION_ROLL_270", 20),
    ("MAV_SENSOR_ROTATION_ROLL_270_YAW_45", 21), ("MAV_SENSOR_ROTATION_ROLL_270_YAW_90", 22),
    ("MAV_SENSOR_ROTATION_ROLL_270_YAW_135", 23), ("MAV_SENSOR_ROTATION_PITCH_90", 24),
    ("MAV_SENSOR_ROTATION_PITCH_270", 25), ("MAV_SENSOR_ROTATION_PITCH_180_YAW_90", 26),
    ("MAV_SENSOR_ROTATION_PITCH_180_YAW_270", 27), ("MAV_SENSOR_ROTATION_ROLL_90_PITCH_90", 28),
    ("MAV_SENSOR_ROTATION_ROLL_180_PITCH_90", 29), ("MAV_SENSOR_ROTATION_ROLL_270_PITCH_90", 30),
    ("MAV_SENSOR_ROTATION_ROLL_90_PITCH_180", 31), ("MAV_SENSOR_ROTATION_ROLL_270_PITCH_180", 32),
    ("MAV_SENSOR_ROTATION_ROLL_90_PITCH_270", 33), ("MAV_SENSOR_ROTATION_ROLL_180_PITCH_270", 34),
    ("MAV_SENSOR_ROTATION_ROLL_270_PITCH_270", 35), ("MAV_SENSOR_ROTATION_ROLL_90_PITCH_180_YAW_90", 36),
    ("MAV_SENSOR_ROTATION_ROLL_90_YAW_270", 37), ("MAV_SENSOR_ROTATION_ROLL_315_PITCH_315_YAW_315", 38),
    ("MAV_SENSOR_ORIENTATION_ENUM_END", 39), ("MAV_PROTOCOL_CAPABILITY_MISSION_FLOAT", 1),
    ("MAV_PROTOCOL_CAPABILITY_PARAM_FLOAT", 2), ("MAV_PROTOCOL_CAPABILITY_MISSION_INT", 4),
    ("MAV_PROTOCOL_CAPABILITY_COMMAND_INT", 8), ("MAV_PROTOCOL_CAPABILITY_PARAM_UNION", 16),
    ("MAV_PROTOCOL_CAPABILITY_FTP", 32), ("MAV_PROTOCOL_CAPABILITY_SET_ATTITUDE_TARGET", 64),
    ("MAV_PROTOCOL_CAPABILITY_SET_POSITION_TARGET_LOCAL_NED", 128),
    ("MAV_PROTOCOL_CAPABILITY_SET_POSITION_TARGET_GLOBAL_INT", 256), ("MAV_PROTOCOL_CAPABILITY_TERRAIN", 512),
    ("MAV_PROTOCOL_CAPABILITY_SET_ACTUATOR_TARGET", 1024), ("MAV_PROTOCOL_CAPABILITY_FLIGHT_TERMINATION", 2048),
    ("MAV_PROTOCOL_CAPABILITY_COMPASS_CALIBRATION", 4096), ("MAV_PROTOCOL_CAPABILITY_ENUM_END", 4097),
    ("MAV_ESTIMATOR_TYPE_NAIVE", 1), ("MAV_ESTIMATOR_TYPE_VISION", 2), ("MAV_ESTIMATOR_TYPE_VIO", 3),
    ("MAV_ESTIMATOR_TYPE_GPS", 4), ("MAV_ESTIMATOR_TYPE_GPS_INS", 5), ("MAV_ESTIMATOR_TYPE_ENUM_END", 6),
    ("MAV_BATTERY_TYPE_UNKNOWN", 0), ("MAV_BATTERY_TYPE_LIPO", 1), ("MAV_BATTERY_TYPE_LIFE", 2),
    ("MAV_BATTERY_TYPE_LION", 3), ("MAV_BATTERY_TYPE_NIMH", 4), ("MAV_BATTERY_TYPE_ENUM_END", 5),
    ("MAV_BATTERY_FUNCTION_UNKNOWN", 0), ("MAV_BATTERY_FUNCTION_ALL", 1), ("MAV_BATTERY_FUNCTION_PROPULSION", 2),
    ("MAV_BATTERY_FUNCTION_AVIONICS", 3), ("MAV_BATTERY_TYPE_PAYLOAD", 4), ("MAV_BATTERY_FUNCTION_ENUM_END", 5),
    ("MAV_VTOL_STATE_UNDEFINED", 0), ("MAV_VTOL_STATE_TRANSITION_TO_FW", 1), ("MAV_VTOL_STATE_TRANSITION_TO_MC", 2),
    ("MAV_VTOL_STATE_MC", 3), ("MAV_VTOL_STATE_FW", 4), ("MAV_VTOL_STATE_ENUM_END", 5),
    ("MAV_LANDED_STATE_UNDEFINED", 0), ("MAV_LANDED_STATE_ON_GROUND", 1), ("MAV_LANDED_STATE_IN_AIR", 2),
    ("MAV_LANDED_STATE_ENUM_END", 3), ("ADSB_ALTITUDE_TYPE_PRESSURE_QNH", 0), ("ADSB_ALTITUDE_TYPE_GEOMETRIC", 1),
    ("ADSB_ALTITUDE_TYPE_ENUM_END", 2), ("ADSB_EMITTER_TYPE_NO_INFO", 0), ("ADSB_EMITTER_TYPE_LIGHT", 1),
    ("ADSB_EMITTER_TYPE_SMALL", 2), ("ADSB_EMITTER_TYPE_LARGE", 3), ("ADSB_EMITTER_TYPE_HIGH_VORTEX_LARGE", 4),
    ("ADSB_EMITTER_TYPE_HEAVY", 5), ("ADSB_EMITTER_TYPE_HIGHLY_MANUV", 6), ("ADSB_EMITTER_TYPE_ROTOCRAFT", 7),
    ("ADSB_EMITTER_TYPE_UNASSIGNED", 8), ("ADSB_EMITTER_TYPE_GLIDER", 9), ("ADSB_EMITTER_TYPE_LIGHTER_AIR", 10),
    ("ADSB_EMITTER_TYPE_PARACHUTE", 11), ("ADSB_EMITTER_TYPE_ULTRA_LIGHT", 12), ("ADSB_EMITTER_TYPE_UNASSIGNED2", 13),
    ("ADSB_EMITTER_TYPE_UAV", 14), ("ADSB_EMITTER_TYPE_SPACE", 15), ("ADSB_EMITTER_TYPE_UNASSGINED3", 16),
    ("ADSB_EMITTER_TYPE_EMERGENCY_SURFACE", 17), ("ADSB_EMITTER_TYPE_SERVICE_SURFACE", 18),
    ("ADSB_EMITTER_TYPE_POINT_OBSTACLE", 19), ("ADSB_EMITTER_TYPE_ENUM_END", 20), ("ADSB_FLAGS_VALID_COORDS", 1),
    ("ADSB_FLAGS_VALID_ALTITUDE", 2), ("ADSB_FLAGS_VALID_HEADING", 4), ("ADSB_FLAGS_VALID_VELOCITY", 8),
    ("ADSB_FLAGS_VALID_CALLSIGN", 16), ("ADSB_FLAGS_VALID_SQUAWK", 32), ("ADSB_FLAGS_SIMULATED", 64),
    ("ADSB_FLAGS_ENUM_END", 65)]

end MinimalXml

end NR
