import Verif.Model.Station

/-
A schema of the JSON output: which members there are, where, and which values they have.

This is for the consumers of the output. It does not use the definitions of the decoder.
-/

namespace Redsea.Spec

/-- Kinds of values. -/
inductive Kind where
  | object
  | array
  | bool
  /-- a whole number from `lo` to `hi` -/
  | number (lo hi : Int)
  /-- a whole number that is not negative -/
  | whole
  /-- a number with a fraction -/
  | coordinate
  /-- any text -/
  | text
  /-- `pre` and then exactly so many hexadecimal digits (upper case) -/
  | hex (pre : String) (digits : Nat)
  /-- one of these texts -/
  | oneOf (texts : List String)
  deriving DecidableEq, Repr

/-- Upper case hexadecimal digits. -/
def upperHex (c : Byte) : Prop := (0x30 ≤ c.toNat ∧ c.toNat ≤ 0x39) ∨ (0x41 ≤ c.toNat ∧ c.toNat ≤ 0x46)

/-- Whether a value is of a kind (elements and members aside). -/
def Kind.Allows : Kind → J → Prop
  | .object, .obj _ => True
  | .array, .arr _ => True
  | .bool, .bool _ => True
  | .number lo hi, .int i => lo ≤ i ∧ i ≤ hi
  | .whole, .int i => 0 ≤ i
  | .coordinate, .float _ => True
  | .text, .str _ => True
  | .hex pre n, .str s => ∃ ds, s = ascii pre ++ ds ∧ ds.length = n ∧ ∀ d ∈ ds, upperHex d
  | .oneOf texts, .str s => ∃ t ∈ texts, s = ascii t
  | _, _ => False

/-- Frequencies in kHz: long, medium, and ultra short wave. -/
def frequency : Kind := .number 153 107900

def byteKind : Kind := .number 0 255
def wordKind : Kind := .number 0 65535

/-- All members, by their path. `[]` stands for the elements of an array. No member is required. -/
def jsonSchema : List (List String × Kind) := [
  ([], .object),
  -- about the reception
  (["stream"], .whole), (["pi"], .hex "0x" 4), (["callsign"], .text), (["callsign_uncertain"], .text),
  (["rx_time"], .text), (["bler"], .whole), (["channel"], .whole), (["raw_data"], .text),
  (["debug"], .array), (["debug", "[]"], .text),
  -- every group
  (["group"], .text), (["tp"], .bool), (["prog_type"], .text),
  -- 0
  (["di"], .object), (["di", "dynamic_pty"], .bool), (["di", "compressed"], .bool), (["di", "artificial_head"], .bool),
  (["di", "stereo"], .bool), (["ta"], .bool), (["is_music"], .bool),
  (["alt_frequencies_a"], .array), (["alt_frequencies_a", "[]"], frequency),
  (["alt_frequencies_b"], .object), (["alt_frequencies_b", "tuned_frequency"], frequency),
  (["alt_frequencies_b", "same_programme"], .array), (["alt_frequencies_b", "same_programme", "[]"], frequency),
  (["alt_frequencies_b", "regional_variants"], .array), (["alt_frequencies_b", "regional_variants", "[]"], frequency),
  (["partial_alt_frequencies"], .array), (["partial_alt_frequencies", "[]"], frequency),
  (["ps"], .text), (["partial_ps"], .text),
  -- 1
  (["prog_item_number"], wordKind), (["prog_item_started"], .object), (["prog_item_started", "day"], .number 1 31),
  (["prog_item_started", "time"], .text), (["has_linkage"], .bool), (["country"], .text), (["tmc_id"], .number 0 4095),
  (["language"], .text), (["slc_broadcaster_bits"], .hex "0x" 3), (["ews"], .number 0 4095),
  -- 2
  (["rt_ab"], .oneOf ["A", "B"]), (["radiotext"], .text), (["partial_radiotext"], .text),
  -- 3A and C
  (["open_data_app"], .object), (["open_data_app", "oda_group"], .text), (["open_data_app", "app_name"], .text),
  (["open_data_app", "message"], wordKind), (["open_data_app", "channel"], .number 0 63),
  (["open_data_app", "oda_aid"], wordKind),
  (["open_data_app", "app_data"], .array), (["open_data_app", "app_data", "[]"], byteKind),
  (["open_data_app", "data"], .array), (["open_data_app", "data", "[]"], byteKind),
  (["open_data_app", "file_oda_data"], .hex "" 7), (["open_data_app", "non_file_oda_data"], .hex "" 7),
  -- 4A
  (["clock_time"], .text),
  -- 5
  (["transparent_data"], .object), (["transparent_data", "address"], .number 0 31), (["transparent_data", "raw"], .text),
  (["transparent_data", "full_text"], .text), (["transparent_data", "full_raw"], .text),
  (["transparent_data", "as_text"], .text),
  -- 6
  (["in_house_data"], .array), (["in_house_data", "[]"], wordKind),
  -- 10A
  (["pty_name"], .text),
  -- 14
  (["other_network"], .object), (["other_network", "pi"], .hex "0x" 4), (["other_network", "tp"], .bool),
  (["other_network", "ta"], .bool), (["other_network", "ps"], .text),
  (["other_network", "alt_frequencies"], .array), (["other_network", "alt_frequencies", "[]"], frequency),
  (["other_network", "kilohertz"], .number 87600 107900), (["other_network", "has_linkage"], .bool),
  (["other_network", "linkage_set"], .number 1 4095), (["other_network", "prog_type"], .text),
  (["other_network", "prog_item_number"], wordKind), (["other_network", "prog_item_started"], .object),
  (["other_network", "prog_item_started", "day"], .number 1 31), (["other_network", "prog_item_started", "time"], .text),
  (["other_network", "broadcaster_data"], .hex "" 4),
  -- 15A
  (["long_ps"], .text), (["partial_long_ps"], .text),
  -- RadioText Plus, for radiotext and enhanced radiotext
  (["radiotext_plus"], .object), (["radiotext_plus", "item_running"], .bool), (["radiotext_plus", "item_toggle"], .number 0 1),
  (["radiotext_plus", "tags"], .array), (["radiotext_plus", "tags", "[]"], .object),
  (["radiotext_plus", "tags", "[]", "content-type"], .text), (["radiotext_plus", "tags", "[]", "data"], .text),
  (["ert_plus"], .object), (["ert_plus", "item_running"], .bool), (["ert_plus", "item_toggle"], .number 0 1),
  (["ert_plus", "tags"], .array), (["ert_plus", "tags", "[]"], .object),
  (["ert_plus", "tags", "[]", "content-type"], .text), (["ert_plus", "tags", "[]", "data"], .text),
  (["enhanced_radiotext"], .text),
  -- cross reference to DAB
  (["dab"], .object), (["dab", "mode"], .oneOf ["unspecified", "I", "II or III", "IV"]),
  (["dab", "kilohertz"], .number 0 4194288), (["dab", "channel"], .text), (["dab", "ensemble_id"], .hex "0x" 4),
  -- other applications
  (["unknown_oda"], .object), (["unknown_oda", "app_id"], .hex "" 4), (["unknown_oda", "app_name"], .text),
  (["unknown_oda", "raw_data"], .text),
  -- files
  (["rft"], .object), (["rft", "data"], .object), (["rft", "data", "pipe"], .number 0 15),
  (["rft", "data", "toggle"], .number 0 1), (["rft", "data", "byte_address"], .number 0 163835),
  (["rft", "data", "segment_data"], .array), (["rft", "data", "segment_data", "[]"], byteKind),
  (["rft", "data", "file_contents"], .text),
  (["rft", "file_info"], .object), (["rft", "file_info", "version"], .number 0 7), (["rft", "file_info", "id"], .number 0 63),
  (["rft", "file_info", "size"], .number 0 262143), (["rft", "file_info", "has_crc"], .bool),
  (["rft", "crc_info"], .object), (["rft", "crc_info", "file_crc16"], wordKind), (["rft", "crc_info", "chunk_crc16"], wordKind),
  (["rft", "crc_info", "chunk_address"], .number 0 511), (["rft", "crc_info", "crc_mode"], .number 1 7),
  -- traffic messages
  (["tmc"], .object), (["tmc", "service_provider"], .text),
  (["tmc", "system_info"], .object), (["tmc", "system_info", "is_encrypted"], .bool),
  (["tmc", "system_info", "location_table"], .number 0 63), (["tmc", "system_info", "is_on_alt_freqs"], .bool),
  (["tmc", "system_info", "scope"], .array),
  (["tmc", "system_info", "scope", "[]"], .oneOf ["inter-road", "national", "regional", "urban"]),
  (["tmc", "system_info", "service_id"], .number 0 63), (["tmc", "system_info", "gap"], .number 3 11),
  (["tmc", "system_info", "ltcc"], .number 1 15), (["tmc", "system_info", "ltecc"], .number 1 255),
  (["tmc", "system_info", "country"], .text), (["tmc", "system_info", "encryption_id"], .number 0 31),
  (["tmc", "other_network"], .object), (["tmc", "other_network", "pi"], .hex "0x" 4),
  (["tmc", "other_network", "pi_codes"], .array), (["tmc", "other_network", "pi_codes", "[]"], .hex "0x" 4),
  (["tmc", "other_network", "frequencies_khz"], .array), (["tmc", "other_network", "frequencies_khz", "[]"], frequency),
  (["tmc", "other_network", "service_id"], .number 0 63), (["tmc", "other_network", "location_table"], .number 0 63),
  (["tmc", "other_network", "scope"], .array),
  (["tmc", "other_network", "scope", "[]"], .oneOf ["inter-road", "national", "regional", "urban"]),
  (["tmc", "message"], .object),
  (["tmc", "message", "event_codes"], .array), (["tmc", "message", "event_codes", "[]"], .whole),
  (["tmc", "message", "supplementary_codes"], .array), (["tmc", "message", "supplementary_codes", "[]"], .whole),
  (["tmc", "message", "update_class"], .whole), (["tmc", "message", "description"], .text),
  (["tmc", "message", "diversion_route"], .array), (["tmc", "message", "diversion_route", "[]"], .whole),
  (["tmc", "message", "speed_limit"], .text), (["tmc", "message", "encrypted_location"], wordKind),
  (["tmc", "message", "location"], wordKind), (["tmc", "message", "direction"], .oneOf ["both", "single"]),
  (["tmc", "message", "extent"], .text), (["tmc", "message", "starts"], .text), (["tmc", "message", "until"], .text),
  (["tmc", "message", "urgency"], .oneOf ["none", "U", "X"]),
  (["tmc", "message", "coordinates"], .array), (["tmc", "message", "coordinates", "[]"], .object),
  (["tmc", "message", "coordinates", "[]", "lat"], .coordinate), (["tmc", "message", "coordinates", "[]", "lon"], .coordinate),
  (["tmc", "message", "span_from"], .text), (["tmc", "message", "span_to"], .text),
  (["tmc", "message", "road_number"], .text), (["tmc", "message", "road_name"], .text)]

/-- What may stand at a path. -/
def kindAt (path : List String) : Option Kind := jsonSchema.lookup path

/-- The value is of the kind for its path. -/
def OfKind (path : List String) (j : J) : Prop := ∃ k, kindAt path = some k ∧ k.Allows j

mutual
/-- A value at a path conforms to the schema, with everything in it. -/
def Conforms (path : List String) : J → Prop
  | .arr l => OfKind path (.arr l) ∧ ConformsList (path ++ ["[]"]) l
  | .obj l => OfKind path (.obj l) ∧ ConformsMembers path l
  | .null => False
  | .bool b => OfKind path (.bool b)
  | .int i => OfKind path (.int i)
  | .float f => OfKind path (.float f)
  | .str s => OfKind path (.str s)
/-- … the elements of an array -/
def ConformsList (path : List String) : List J → Prop
  | [] => True
  | j :: l => Conforms path j ∧ ConformsList path l
/-- … the members of an object -/
def ConformsMembers (path : List String) : List (String × J) → Prop
  | [] => True
  | m :: l => Conforms (path ++ [m.1]) m.2 ∧ ConformsMembers path l
end

end Redsea.Spec
