import Verif.DebugInfo

/-!
# The structures that are shown in debug mode

The attributes of the debug definitions (the `.debug.yaml` files), the members of the structures they are used for (the
`.yaml` files) and the custom format callbacks of the classes that show them.  The tables are transcribed from the files.

A structure is here with every debug definition its class passes to `_DebugPrintStructureObject` or
`_FormatStructureObject` together with it.  Simplified: the type of a member is reduced to its kind; the members of members are
not here.
-/

namespace Dtf.DebugTables

abbrev Str := List Char

/-- The kinds of values of members: `octets` are sequences of bytes, `structures` sequences of structures. -/
inductive Kind where
  | integer | floating | text | bytes | octets | uuid | integers | texts | uuids | nested | structures
deriving DecidableEq, Repr

/-- The characters of a name, as a list. -/
macro "chars! " s:str : term => do
  let cs := s.getString.toList.toArray.map Lean.Syntax.mkCharLit
  `([$cs,*])

/-- A structure, the class that shows it and the debug definition that is used. -/
structure Use where
  reader : Str
  definition : Str
  shape : Str
  calls : List (Str × Str)
  attributes : List DebugInfo.Attribute
  members : List (Str × Kind)

/-! ### alias_data.yaml and alias_data.debug.yaml -/

/-- The custom format callbacks of `MacOSLoginItemAliasData` (dtformats/alias_data.py). -/
def callsMacOSLoginItemAliasData : List (Str × Str) :=
  [(chars! "array_of_decimals", chars! "_FormatArrayOfIntegersAsDecimals"),
    (chars! "hfs_time", chars! "_FormatIntegerAsHFSTime"),
    (chars! "hfs_time_64bit", chars! "_FormatIntegerAsHFSTime64bit")]

/-- `alias_data_record_header` (dtformats/alias_data.debug.yaml). -/
def debug_alias_data_record_header : List DebugInfo.Attribute :=
  [⟨chars! "application_information", "Application information".toList, chars! "binary_data"⟩,
    ⟨chars! "record_size", "Record size".toList, chars! "decimal"⟩,
    ⟨chars! "format_version", "Format version".toList, chars! "decimal"⟩]

/-- `alias_data_record_header` (dtformats/alias_data.yaml). -/
def members_alias_data_record_header : List (Str × Kind) :=
  [(chars! "application_information", .bytes),
    (chars! "record_size", .integer),
    (chars! "format_version", .integer)]

/-- `alias_data_record_v2` (dtformats/alias_data.debug.yaml). -/
def debug_alias_data_record_v2 : List DebugInfo.Attribute :=
  [⟨chars! "alias_type", "Alias type".toList, chars! "decimal"⟩,
    ⟨chars! "volume_name", "Volume name".toList, chars! "binary_data"⟩,
    ⟨chars! "volume_creation_time", "Volume creation date and time".toList, chars! "custom:hfs_time"⟩,
    ⟨chars! "file_system_type", "File system type".toList, chars! "binary_data"⟩,
    ⟨chars! "disk_type", "Disk type".toList, chars! "binary_data"⟩,
    ⟨chars! "parent_fsid", "Parent file system identifier".toList, chars! "decimal"⟩,
    ⟨chars! "target_name", "Target name".toList, chars! "binary_data"⟩,
    ⟨chars! "target_fsid", "Target file system identifier".toList, chars! "decimal"⟩,
    ⟨chars! "target_creation_time", "Target creation date and time".toList, chars! "custom:hfs_time"⟩]

/-- `alias_data_record_v2` (dtformats/alias_data.yaml). -/
def members_alias_data_record_v2 : List (Str × Kind) :=
  [(chars! "alias_type", .integer),
    (chars! "volume_name", .bytes),
    (chars! "volume_creation_time", .integer),
    (chars! "file_system_type", .bytes),
    (chars! "disk_type", .bytes),
    (chars! "parent_fsid", .integer),
    (chars! "target_name", .bytes),
    (chars! "target_fsid", .integer),
    (chars! "target_creation_time", .integer)]

/-- `alias_data_record_v3` (dtformats/alias_data.debug.yaml). -/
def debug_alias_data_record_v3 : List DebugInfo.Attribute :=
  [⟨chars! "alias_type", "Alias type".toList, chars! "decimal"⟩,
    ⟨chars! "volume_creation_time", "Volume creation date and time".toList, chars! "custom:hfs_time_64bit"⟩,
    ⟨chars! "file_system_type", "File system type".toList, chars! "binary_data"⟩,
    ⟨chars! "disk_type", "Disk type".toList, chars! "decimal"⟩,
    ⟨chars! "parent_fsid", "Parent file system identifier".toList, chars! "decimal"⟩,
    ⟨chars! "target_fsid", "Target file system identifier".toList, chars! "decimal"⟩,
    ⟨chars! "target_creation_time", "Target creation date and time".toList, chars! "custom:hfs_time_64bit"⟩,
    ⟨chars! "volume_flags", "Volume flags".toList, chars! "hexadecimal_4digits"⟩,
    ⟨chars! "unknown1", "Unknown1".toList, chars! "binary_data"⟩]

/-- `alias_data_record_v3` (dtformats/alias_data.yaml). -/
def members_alias_data_record_v3 : List (Str × Kind) :=
  [(chars! "alias_type", .integer),
    (chars! "volume_creation_time", .integer),
    (chars! "file_system_type", .bytes),
    (chars! "disk_type", .integer),
    (chars! "parent_fsid", .integer),
    (chars! "target_fsid", .integer),
    (chars! "target_creation_time", .integer),
    (chars! "volume_flags", .integer),
    (chars! "unknown1", .bytes)]

/-- `alias_data_tagged_value` (dtformats/alias_data.debug.yaml). -/
def debug_alias_data_tagged_value : List DebugInfo.Attribute :=
  [⟨chars! "value_tag", "Value tag".toList, chars! "hexadecimal_4digits"⟩,
    ⟨chars! "value_data_size", "Value data size".toList, chars! "decimal"⟩,
    ⟨chars! "value_data", "Value data".toList, chars! "binary_data"⟩,
    ⟨chars! "integers", "Integers".toList, chars! "custom:array_of_decimals"⟩,
    ⟨chars! "number_of_characters", "Number of characters".toList, chars! "decimal"⟩,
    ⟨chars! "string", "String".toList, chars! "string"⟩,
    ⟨chars! "alignment_padding", "Alignment padding".toList, chars! "binary_data"⟩]

/-- `alias_data_tagged_value_with_data` (dtformats/alias_data.yaml). -/
def members_alias_data_tagged_value_with_data : List (Str × Kind) :=
  [(chars! "value_tag", .integer),
    (chars! "value_data_size", .integer),
    (chars! "value_data", .bytes),
    (chars! "alignment_padding", .bytes)]

/-- `alias_data_tagged_value_with_uint32_array` (dtformats/alias_data.yaml). -/
def members_alias_data_tagged_value_with_uint32_array : List (Str × Kind) :=
  [(chars! "value_tag", .integer),
    (chars! "value_data_size", .integer),
    (chars! "integers", .integers),
    (chars! "alignment_padding", .bytes)]

/-- `alias_data_tagged_value_with_utf8_string` (dtformats/alias_data.yaml). -/
def members_alias_data_tagged_value_with_utf8_string : List (Str × Kind) :=
  [(chars! "value_tag", .integer),
    (chars! "value_data_size", .integer),
    (chars! "string", .text),
    (chars! "alignment_padding", .bytes)]

/-- `alias_data_tagged_value_with_utf16_string` (dtformats/alias_data.yaml). -/
def members_alias_data_tagged_value_with_utf16_string : List (Str × Kind) :=
  [(chars! "value_tag", .integer),
    (chars! "value_data_size", .integer),
    (chars! "number_of_characters", .integer),
    (chars! "string", .text),
    (chars! "alignment_padding", .bytes)]

/-- The structures of alias_data that are shown. -/
def uses_alias_data : List Use :=
  [⟨chars! "MacOSLoginItemAliasData", chars! "alias_data_record_header", chars! "alias_data_record_header",
      callsMacOSLoginItemAliasData, debug_alias_data_record_header, members_alias_data_record_header⟩,
    ⟨chars! "MacOSLoginItemAliasData", chars! "alias_data_record_v2", chars! "alias_data_record_v2",
      callsMacOSLoginItemAliasData, debug_alias_data_record_v2, members_alias_data_record_v2⟩,
    ⟨chars! "MacOSLoginItemAliasData", chars! "alias_data_record_v3", chars! "alias_data_record_v3",
      callsMacOSLoginItemAliasData, debug_alias_data_record_v3, members_alias_data_record_v3⟩,
    ⟨chars! "MacOSLoginItemAliasData", chars! "alias_data_tagged_value", chars! "alias_data_tagged_value_with_data",
      callsMacOSLoginItemAliasData, debug_alias_data_tagged_value, members_alias_data_tagged_value_with_data⟩,
    ⟨chars! "MacOSLoginItemAliasData", chars! "alias_data_tagged_value", chars! "alias_data_tagged_value_with_uint32_array",
      callsMacOSLoginItemAliasData, debug_alias_data_tagged_value, members_alias_data_tagged_value_with_uint32_array⟩,
    ⟨chars! "MacOSLoginItemAliasData", chars! "alias_data_tagged_value", chars! "alias_data_tagged_value_with_utf8_string",
      callsMacOSLoginItemAliasData, debug_alias_data_tagged_value, members_alias_data_tagged_value_with_utf8_string⟩,
    ⟨chars! "MacOSLoginItemAliasData", chars! "alias_data_tagged_value", chars! "alias_data_tagged_value_with_utf16_string",
      callsMacOSLoginItemAliasData, debug_alias_data_tagged_value, members_alias_data_tagged_value_with_utf16_string⟩]

/-! ### asl.yaml and asl.debug.yaml -/

/-- The custom format callbacks of `AppleSystemLogFile` (dtformats/asl.py). -/
def callsAppleSystemLogFile : List (Str × Str) :=
  [(chars! "posix_time", chars! "_FormatIntegerAsPosixTime"),
    (chars! "record_flags", chars! "_FormatRecordFlags"),
    (chars! "signature", chars! "_FormatStreamAsString")]

/-- `asl_file_header` (dtformats/asl.debug.yaml). -/
def debug_asl_file_header : List DebugInfo.Attribute :=
  [⟨chars! "signature", "Signature".toList, chars! "custom:signature"⟩,
    ⟨chars! "format_version", "Format version".toList, chars! "decimal"⟩,
    ⟨chars! "first_log_entry_offset", "First log entry offset".toList, chars! "hexadecimal_8digits"⟩,
    ⟨chars! "creation_time", "Creation time".toList, chars! "custom:posix_time"⟩,
    ⟨chars! "cache_size", "Cache size".toList, chars! "decimal"⟩,
    ⟨chars! "last_log_entry_offset", "Last log entry offset".toList, chars! "hexadecimal_8digits"⟩,
    ⟨chars! "unknown1", "Unknown1".toList, chars! "binary_data"⟩]

/-- `asl_file_header` (dtformats/asl.yaml). -/
def members_asl_file_header : List (Str × Kind) :=
  [(chars! "signature", .bytes),
    (chars! "format_version", .integer),
    (chars! "first_log_entry_offset", .integer),
    (chars! "creation_time", .integer),
    (chars! "cache_size", .integer),
    (chars! "last_log_entry_offset", .integer),
    (chars! "unknown1", .bytes)]

/-- `asl_record` (dtformats/asl.debug.yaml). -/
def debug_asl_record : List DebugInfo.Attribute :=
  [⟨chars! "unknown1", "Unknown1".toList, chars! "hexadecimal_8digits"⟩,
    ⟨chars! "data_size", "Data size".toList, chars! "decimal"⟩,
    ⟨chars! "next_record_offset", "Next record offset".toList, chars! "hexadecimal_8digits"⟩,
    ⟨chars! "message_identifier", "Message identifier".toList, chars! "hexadecimal_8digits"⟩,
    ⟨chars! "written_time", "Written time".toList, chars! "custom:posix_time"⟩,
    ⟨chars! "written_time_nanoseconds", "Written time nanoseconds".toList, chars! "decimal"⟩,
    ⟨chars! "alert_level", "Alert level".toList, chars! "decimal"⟩,
    ⟨chars! "flags", "Flags".toList, chars! "custom:record_flags"⟩,
    ⟨chars! "process_identifier", "Process identifier (PID)".toList, chars! "decimal"⟩,
    ⟨chars! "user_identifier", "User identifier (UID)".toList, chars! "decimal"⟩,
    ⟨chars! "group_identifier", "Group identifier (GID)".toList, chars! "decimal"⟩,
    ⟨chars! "read_user_identifier", "Read user identifier (UID)".toList, chars! "decimal"⟩,
    ⟨chars! "read_group_identifier", "Read group identifier (GID)".toList, chars! "decimal"⟩,
    ⟨chars! "reference_process_identifier", "Reference process identifier (PID)".toList, chars! "decimal"⟩,
    ⟨chars! "hostname_string_offset", "Hostname string offset".toList, chars! "hexadecimal_8digits"⟩,
    ⟨chars! "sender_string_offset", "Sender string offset".toList, chars! "hexadecimal_8digits"⟩,
    ⟨chars! "facility_string_offset", "Facility string offset".toList, chars! "hexadecimal_8digits"⟩,
    ⟨chars! "message_string_offset", "Message string offset".toList, chars! "hexadecimal_8digits"⟩]

/-- `asl_record` (dtformats/asl.yaml). -/
def members_asl_record : List (Str × Kind) :=
  [(chars! "unknown1", .integer),
    (chars! "data_size", .integer),
    (chars! "next_record_offset", .integer),
    (chars! "message_identifier", .integer),
    (chars! "written_time", .integer),
    (chars! "written_time_nanoseconds", .integer),
    (chars! "alert_level", .integer),
    (chars! "flags", .integer),
    (chars! "process_identifier", .integer),
    (chars! "user_identifier", .integer),
    (chars! "group_identifier", .integer),
    (chars! "read_user_identifier", .integer),
    (chars! "read_group_identifier", .integer),
    (chars! "reference_process_identifier", .integer),
    (chars! "hostname_string_offset", .integer),
    (chars! "sender_string_offset", .integer),
    (chars! "facility_string_offset", .integer),
    (chars! "message_string_offset", .integer)]

/-- `asl_record_extra_field` (dtformats/asl.debug.yaml). -/
def debug_asl_record_extra_field : List DebugInfo.Attribute :=
  [⟨chars! "name_string_offset", "Name string offset".toList, chars! "hexadecimal_8digits"⟩,
    ⟨chars! "value_string_offset", "Value string offset".toList, chars! "hexadecimal_8digits"⟩]

/-- `asl_record_extra_field` (dtformats/asl.yaml). -/
def members_asl_record_extra_field : List (Str × Kind) :=
  [(chars! "name_string_offset", .integer),
    (chars! "value_string_offset", .integer)]

/-- `asl_record_string` (dtformats/asl.debug.yaml). -/
def debug_asl_record_string : List DebugInfo.Attribute :=
  [⟨chars! "unknown1", "Unknown1".toList, chars! "hexadecimal_8digits"⟩,
    ⟨chars! "string_size", "String size".toList, chars! "decimal"⟩,
    ⟨chars! "string", "String".toList, chars! "string"⟩]

/-- `asl_record_string` (dtformats/asl.yaml). -/
def members_asl_record_string : List (Str × Kind) :=
  [(chars! "unknown1", .integer),
    (chars! "string_size", .integer),
    (chars! "string", .text)]

/-- The structures of asl that are shown. -/
def uses_asl : List Use :=
  [⟨chars! "AppleSystemLogFile", chars! "asl_file_header", chars! "asl_file_header",
      callsAppleSystemLogFile, debug_asl_file_header, members_asl_file_header⟩,
    ⟨chars! "AppleSystemLogFile", chars! "asl_record", chars! "asl_record",
      callsAppleSystemLogFile, debug_asl_record, members_asl_record⟩,
    ⟨chars! "AppleSystemLogFile", chars! "asl_record_extra_field", chars! "asl_record_extra_field",
      callsAppleSystemLogFile, debug_asl_record_extra_field, members_asl_record_extra_field⟩,
    ⟨chars! "AppleSystemLogFile", chars! "asl_record_string", chars! "asl_record_string",
      callsAppleSystemLogFile, debug_asl_record_string, members_asl_record_string⟩]

/-! ### bookmark_data.yaml and bookmark_data.debug.yaml -/

/-- The custom format callbacks of `MacOSBackgroundItemBookmarkData` (dtformats/bookmark_data.py). -/
def callsMacOSBackgroundItemBookmarkData : List (Str × Str) :=
  [(chars! "array_of_decimals", chars! "_FormatArrayOfIntegersAsDecimals"),
    (chars! "array_of_tagged_values", chars! "_FormatArrayOfTaggedValues"),
    (chars! "signature", chars! "_FormatStreamAsString")]

/-- `bookmark_data_header` (dtformats/bookmark_data.debug.yaml). -/
def debug_bookmark_data_header : List DebugInfo.Attribute :=
  [⟨chars! "signature", "Signature".toList, chars! "custom:signature"⟩,
    ⟨chars! "size", "Size".toList, chars! "decimal"⟩,
    ⟨chars! "unknown1", "Unknown1".toList, chars! "hexadecimal_8digits"⟩,
    ⟨chars! "data_area_offset", "Data area offset".toList, chars! "hexadecimal_8digits"⟩,
    ⟨chars! "unknown3", "Unknown3".toList, chars! "binary_data"⟩]

/-- `bookmark_data_header` (dtformats/bookmark_data.yaml). -/
def members_bookmark_data_header : List (Str × Kind) :=
  [(chars! "signature", .bytes),
    (chars! "size", .integer),
    (chars! "unknown1", .integer),
    (chars! "data_area_offset", .integer),
    (chars! "unknown3", .bytes)]

/-- `bookmark_data_property_flags` (dtformats/bookmark_data.debug.yaml). -/
def debug_bookmark_data_property_flags : List DebugInfo.Attribute :=
  [⟨chars! "flags", "Flags".toList, chars! "hexadecimal_8digits"⟩,
    ⟨chars! "valid_flags_bitmask", "Valid flags bitmask".toList, chars! "hexadecimal_8digits"⟩,
    ⟨chars! "unknown1", "Unknown".toList, chars! "hexadecimal_8digits"⟩]

/-- `bookmark_data_property_flags` (dtformats/bookmark_data.yaml). -/
def members_bookmark_data_property_flags : List (Str × Kind) :=
  [(chars! "flags", .integer),
    (chars! "valid_flags_bitmask", .integer),
    (chars! "unknown1", .integer)]

/-- `bookmark_data_record` (dtformats/bookmark_data.debug.yaml). -/
def debug_bookmark_data_record : List DebugInfo.Attribute :=
  [⟨chars! "data_size", "Data size".toList, chars! "decimal"⟩,
    ⟨chars! "data_type", "Data type".toList, chars! "hexadecimal_8digits"⟩,
    ⟨chars! "data", "Data".toList, chars! "binary_data"⟩,
    ⟨chars! "floating_point", "Floating point".toList, chars! "floating_point"⟩,
    ⟨chars! "integer", "Integer".toList, chars! "decimal"⟩,
    ⟨chars! "integers", "Integers".toList, chars! "custom:array_of_decimals"⟩,
    ⟨chars! "string", "String".toList, chars! "string"⟩]

/-- `bookmark_data_record_with_data` (dtformats/bookmark_data.yaml). -/
def members_bookmark_data_record_with_data : List (Str × Kind) :=
  [(chars! "data_size", .integer),
    (chars! "data_type", .integer),
    (chars! "data", .bytes)]

/-- `bookmark_data_record_with_float32` (dtformats/bookmark_data.yaml). -/
def members_bookmark_data_record_with_float32 : List (Str × Kind) :=
  [(chars! "data_size", .integer),
    (chars! "data_type", .integer),
    (chars! "floating_point", .floating)]

/-- `bookmark_data_record_with_float64` (dtformats/bookmark_data.yaml). -/
def members_bookmark_data_record_with_float64 : List (Str × Kind) :=
  [(chars! "data_size", .integer),
    (chars! "data_type", .integer),
    (chars! "floating_point", .floating)]

/-- `bookmark_data_record_with_int8` (dtformats/bookmark_data.yaml). -/
def members_bookmark_data_record_with_int8 : List (Str × Kind) :=
  [(chars! "data_size", .integer),
    (chars! "data_type", .integer),
    (chars! "integer", .integer)]

/-- `bookmark_data_record_with_int16` (dtformats/bookmark_data.yaml). -/
def members_bookmark_data_record_with_int16 : List (Str × Kind) :=
  [(chars! "data_size", .integer),
    (chars! "data_type", .integer),
    (chars! "integer", .integer)]

/-- `bookmark_data_record_with_int32` (dtformats/bookmark_data.yaml). -/
def members_bookmark_data_record_with_int32 : List (Str × Kind) :=
  [(chars! "data_size", .integer),
    (chars! "data_type", .integer),
    (chars! "integer", .integer)]

/-- `bookmark_data_record_with_int64` (dtformats/bookmark_data.yaml). -/
def members_bookmark_data_record_with_int64 : List (Str × Kind) :=
  [(chars! "data_size", .integer),
    (chars! "data_type", .integer),
    (chars! "integer", .integer)]

/-- `bookmark_data_record_with_uint32_array` (dtformats/bookmark_data.yaml). -/
def members_bookmark_data_record_with_uint32_array : List (Str × Kind) :=
  [(chars! "data_size", .integer),
    (chars! "data_type", .integer),
    (chars! "integers", .integers)]

/-- `bookmark_data_record_with_utf8_string` (dtformats/bookmark_data.yaml). -/
def members_bookmark_data_record_with_utf8_string : List (Str × Kind) :=
  [(chars! "data_size", .integer),
    (chars! "data_type", .integer),
    (chars! "string", .text)]

/-- `bookmark_data_toc` (dtformats/bookmark_data.debug.yaml). -/
def debug_bookmark_data_toc : List DebugInfo.Attribute :=
  [⟨chars! "entries_data_size", "Entries data size".toList, chars! "decimal"⟩,
    ⟨chars! "unknown1", "Unknown1".toList, chars! "hexadecimal_8digits"⟩,
    ⟨chars! "identifier", "Identifier".toList, chars! "decimal"⟩,
    ⟨chars! "next_toc_offset", "Next TOC offset".toList, chars! "hexadecimal_8digits"⟩,
    ⟨chars! "number_of_tagged_values", "Number of tagged values".toList, chars! "decimal"⟩,
    ⟨chars! "tagged_values", "Tagged values".toList, chars! "custom:array_of_tagged_values"⟩]

/-- `bookmark_data_toc` (dtformats/bookmark_data.yaml). -/
def members_bookmark_data_toc : List (Str × Kind) :=
  [(chars! "entries_data_size", .integer),
    (chars! "unknown1", .integer),
    (chars! "identifier", .integer),
    (chars! "next_toc_offset", .integer),
    (chars! "number_of_tagged_values", .integer),
    (chars! "tagged_values", .structures)]

/-- The structures of bookmark_data that are shown. -/
def uses_bookmark_data : List Use :=
  [⟨chars! "MacOSBackgroundItemBookmarkData", chars! "bookmark_data_header", chars! "bookmark_data_header",
      callsMacOSBackgroundItemBookmarkData, debug_bookmark_data_header, members_bookmark_data_header⟩,
    ⟨chars! "MacOSBackgroundItemBookmarkData", chars! "bookmark_data_property_flags", chars! "bookmark_data_property_flags",
      callsMacOSBackgroundItemBookmarkData, debug_bookmark_data_property_flags, members_bookmark_data_property_flags⟩,
    ⟨chars! "MacOSBackgroundItemBookmarkData", chars! "bookmark_data_record", chars! "bookmark_data_record_with_data",
      callsMacOSBackgroundItemBookmarkData, debug_bookmark_data_record, members_bookmark_data_record_with_data⟩,
    ⟨chars! "MacOSBackgroundItemBookmarkData", chars! "bookmark_data_record", chars! "bookmark_data_record_with_float32",
      callsMacOSBackgroundItemBookmarkData, debug_bookmark_data_record, members_bookmark_data_record_with_float32⟩,
    ⟨chars! "MacOSBackgroundItemBookmarkData", chars! "bookmark_data_record", chars! "bookmark_data_record_with_float64",
      callsMacOSBackgroundItemBookmarkData, debug_bookmark_data_record, members_bookmark_data_record_with_float64⟩,
    ⟨chars! "MacOSBackgroundItemBookmarkData", chars! "bookmark_data_record", chars! "bookmark_data_record_with_int8",
      callsMacOSBackgroundItemBookmarkData, debug_bookmark_data_record, members_bookmark_data_record_with_int8⟩,
    ⟨chars! "MacOSBackgroundItemBookmarkData", chars! "bookmark_data_record", chars! "bookmark_data_record_with_int16",
      callsMacOSBackgroundItemBookmarkData, debug_bookmark_data_record, members_bookmark_data_record_with_int16⟩,
    ⟨chars! "MacOSBackgroundItemBookmarkData", chars! "bookmark_data_record", chars! "bookmark_data_record_with_int32",
      callsMacOSBackgroundItemBookmarkData, debug_bookmark_data_record, members_bookmark_data_record_with_int32⟩,
    ⟨chars! "MacOSBackgroundItemBookmarkData", chars! "bookmark_data_record", chars! "bookmark_data_record_with_int64",
      callsMacOSBackgroundItemBookmarkData, debug_bookmark_data_record, members_bookmark_data_record_with_int64⟩,
    ⟨chars! "MacOSBackgroundItemBookmarkData", chars! "bookmark_data_record", chars! "bookmark_data_record_with_uint32_array",
      callsMacOSBackgroundItemBookmarkData, debug_bookmark_data_record, members_bookmark_data_record_with_uint32_array⟩,
    ⟨chars! "MacOSBackgroundItemBookmarkData", chars! "bookmark_data_record", chars! "bookmark_data_record_with_utf8_string",
      callsMacOSBackgroundItemBookmarkData, debug_bookmark_data_record, members_bookmark_data_record_with_utf8_string⟩,
    ⟨chars! "MacOSBackgroundItemBookmarkData", chars! "bookmark_data_toc", chars! "bookmark_data_toc",
      callsMacOSBackgroundItemBookmarkData, debug_bookmark_data_toc, members_bookmark_data_toc⟩]

/-! ### bsm.yaml and bsm.debug.yaml -/

/-- The custom format callbacks of `BSMEventAuditingFile` (dtformats/bsm.py). -/
def callsBSMEventAuditingFile : List (Str × Str) :=
  [(chars! "event_type", chars! "_FormatIntegerAsEventType"),
    (chars! "ip_address", chars! "_FormatArrayOfIntegersAsIPAddress"),
    (chars! "ipv4_address", chars! "_FormatArrayOfIntegersAsIPv4Address"),
    (chars! "ipv6_address", chars! "_FormatArrayOfIntegersAsIPv6Address"),
    (chars! "net_type", chars! "_FormatIntegerAsNetType"),
    (chars! "posix_time", chars! "_FormatIntegerAsPosixTime")]

/-- `bsm_token_arg` (dtformats/bsm.debug.yaml). -/
def debug_bsm_token_arg : List DebugInfo.Attribute :=
  [⟨chars! "token_type", "Token type".toList, chars! "hexadecimal_2digits"⟩,
    ⟨chars! "argument_index", "Argument index".toList, chars! "decimal"⟩,
    ⟨chars! "argument_name", "Argument name".toList, chars! "hexadecimal_8digits"⟩,
    ⟨chars! "argument_value_size", "Argument value size".toList, chars! "decimal"⟩,
    ⟨chars! "argument_value", "Argument value".toList, chars! "string"⟩]

/-- `bsm_token_arg32` (dtformats/bsm.yaml). -/
def members_bsm_token_arg32 : List (Str × Kind) :=
  [(chars! "token_type", .integer),
    (chars! "argument_index", .integer),
    (chars! "argument_name", .integer),
    (chars! "argument_value_size", .integer),
    (chars! "argument_value", .text)]

/-- `bsm_token_arg64` (dtformats/bsm.yaml). -/
def members_bsm_token_arg64 : List (Str × Kind) :=
  [(chars! "token_type", .integer),
    (chars! "argument_index", .integer),
    (chars! "argument_name", .integer),
    (chars! "argument_value_size", .integer),
    (chars! "argument_value", .text)]

/-- `bsm_token_attr` (dtformats/bsm.debug.yaml). -/
def debug_bsm_token_attr : List DebugInfo.Attribute :=
  [⟨chars! "token_type", "Token type".toList, chars! "hexadecimal_2digits"⟩,
    ⟨chars! "unknown1", "Unknown1".toList, chars! "hexadecimal_4digits"⟩,
    ⟨chars! "file_mode", "File mode".toList, chars! "hexadecimal_4digits"⟩,
    ⟨chars! "user_identifier", "User identifier (UID)".toList, chars! "decimal"⟩,
    ⟨chars! "group_identifier", "Group identifier (GID)".toList, chars! "decimal"⟩,
    ⟨chars! "file_system_identifier", "File system identifier".toList, chars! "hexadecimal_8digits"⟩,
    ⟨chars! "file_identifier", "File identifier".toList, chars! "hexadecimal_8digits"⟩,
    ⟨chars! "device", "Device".toList, chars! "hexadecimal_8digits"⟩]

/-- `bsm_token_attr32` (dtformats/bsm.yaml). -/
def members_bsm_token_attr32 : List (Str × Kind) :=
  [(chars! "token_type", .integer),
    (chars! "unknown1", .integer),
    (chars! "file_mode", .integer),
    (chars! "user_identifier", .integer),
    (chars! "group_identifier", .integer),
    (chars! "file_system_identifier", .integer),
    (chars! "file_identifier", .integer),
    (chars! "device", .integer)]

/-- `bsm_token_attr64` (dtformats/bsm.yaml). -/
def members_bsm_token_attr64 : List (Str × Kind) :=
  [(chars! "token_type", .integer),
    (chars! "unknown1", .integer),
    (chars! "file_mode", .integer),
    (chars! "user_identifier", .integer),
    (chars! "group_identifier", .integer),
    (chars! "file_system_identifier", .integer),
    (chars! "file_identifier", .integer),
    (chars! "device", .integer)]

/-- `bsm_token_data` (dtformats/bsm.debug.yaml). -/
def debug_bsm_token_data : List DebugInfo.Attribute :=
  [⟨chars! "token_type", "Token type".toList, chars! "hexadecimal_2digits"⟩,
    ⟨chars! "data_format", "Data format".toList, chars! "hexadecimal_2digits"⟩,
    ⟨chars! "element_data_type", "Element data type".toList, chars! "hexadecimal_2digits"⟩,
    ⟨chars! "number_of_elements", "Number of elements".toList, chars! "decimal"⟩,
    ⟨chars! "data", "Data".toList, chars! "binary_data"⟩]

/-- `bsm_token_data` (dtformats/bsm.yaml). -/
def members_bsm_token_data : List (Str × Kind) :=
  [(chars! "token_type", .integer),
    (chars! "data_format", .integer),
    (chars! "element_data_type", .integer),
    (chars! "number_of_elements", .integer),
    (chars! "data", .bytes)]

/-- `bsm_token_exit` (dtformats/bsm.debug.yaml). -/
def debug_bsm_token_exit : List DebugInfo.Attribute :=
  [⟨chars! "token_type", "Token type".toList, chars! "hexadecimal_2digits"⟩,
    ⟨chars! "status", "Status".toList, chars! "hexadecimal_8digits"⟩,
    ⟨chars! "return_value", "Return value".toList, chars! "hexadecimal_8digits"⟩]

/-- `bsm_token_exit` (dtformats/bsm.yaml). -/
def members_bsm_token_exit : List (Str × Kind) :=
  [(chars! "token_type", .integer),
    (chars! "status", .integer),
    (chars! "return_value", .integer)]

/-- `bsm_token_header` (dtformats/bsm.debug.yaml). -/
def debug_bsm_token_header : List DebugInfo.Attribute :=
  [⟨chars! "token_type", "Token type".toList, chars! "hexadecimal_2digits"⟩,
    ⟨chars! "record_size", "Record size".toList, chars! "decimal"⟩,
    ⟨chars! "format_version", "Format version".toList, chars! "decimal"⟩,
    ⟨chars! "event_type", "Event type".toList, chars! "custom:event_type"⟩,
    ⟨chars! "modifier", "Modifier".toList, chars! "hexadecimal_4digits"⟩,
    ⟨chars! "timestamp", "Timestamp".toList, chars! "custom:posix_time"⟩,
    ⟨chars! "microseconds", "Microseconds".toList, chars! "decimal"⟩]

/-- `bsm_token_header32` (dtformats/bsm.yaml). -/
def members_bsm_token_header32 : List (Str × Kind) :=
  [(chars! "token_type", .integer),
    (chars! "record_size", .integer),
    (chars! "format_version", .integer),
    (chars! "event_type", .integer),
    (chars! "modifier", .integer),
    (chars! "timestamp", .integer),
    (chars! "microseconds", .integer)]

/-- `bsm_token_header_ex` (dtformats/bsm.debug.yaml). -/
def debug_bsm_token_header_ex : List DebugInfo.Attribute :=
  [⟨chars! "token_type", "Token type".toList, chars! "hexadecimal_2digits"⟩,
    ⟨chars! "record_size", "Record size".toList, chars! "decimal"⟩,
    ⟨chars! "format_version", "Format version".toList, chars! "decimal"⟩,
    ⟨chars! "event_type", "Event type".toList, chars! "custom:event_type"⟩,
    ⟨chars! "modifier", "Modifier".toList, chars! "hexadecimal_4digits"⟩,
    ⟨chars! "net_type", "Net type".toList, chars! "custom:net_type"⟩,
    ⟨chars! "ip_address", "IP address".toList, chars! "custom:ip_address"⟩,
    ⟨chars! "timestamp", "Timestamp".toList, chars! "custom:posix_time"⟩,
    ⟨chars! "microseconds", "Microseconds".toList, chars! "decimal"⟩]

/-- `bsm_token_header32_ex` (dtformats/bsm.yaml). -/
def members_bsm_token_header32_ex : List (Str × Kind) :=
  [(chars! "token_type", .integer),
    (chars! "record_size", .integer),
    (chars! "format_version", .integer),
    (chars! "event_type", .integer),
    (chars! "modifier", .integer),
    (chars! "net_type", .integer),
    (chars! "ip_address", .octets),
    (chars! "timestamp", .integer),
    (chars! "microseconds", .integer)]

/-- `bsm_token_header64` (dtformats/bsm.yaml). -/
def members_bsm_token_header64 : List (Str × Kind) :=
  [(chars! "token_type", .integer),
    (chars! "record_size", .integer),
    (chars! "format_version", .integer),
    (chars! "event_type", .integer),
    (chars! "modifier", .integer),
    (chars! "timestamp", .integer),
    (chars! "microseconds", .integer)]

/-- `bsm_token_header64_ex` (dtformats/bsm.yaml). -/
def members_bsm_token_header64_ex : List (Str × Kind) :=
  [(chars! "token_type", .integer),
    (chars! "record_size", .integer),
    (chars! "format_version", .integer),
    (chars! "event_type", .integer),
    (chars! "modifier", .integer),
    (chars! "net_type", .integer),
    (chars! "ip_address", .octets),
    (chars! "timestamp", .integer),
    (chars! "microseconds", .integer)]

/-- `bsm_token_in_addr` (dtformats/bsm.debug.yaml). -/
def debug_bsm_token_in_addr : List DebugInfo.Attribute :=
  [⟨chars! "token_type", "Token type".toList, chars! "hexadecimal_2digits"⟩,
    ⟨chars! "ip_address", "IP address".toList, chars! "custom:ipv4_address"⟩]

/-- `bsm_token_in_addr` (dtformats/bsm.yaml). -/
def members_bsm_token_in_addr : List (Str × Kind) :=
  [(chars! "token_type", .integer),
    (chars! "ip_address", .octets)]

/-- `bsm_token_in_addr_ex` (dtformats/bsm.debug.yaml). -/
def debug_bsm_token_in_addr_ex : List DebugInfo.Attribute :=
  [⟨chars! "token_type", "Token type".toList, chars! "hexadecimal_2digits"⟩,
    ⟨chars! "net_type", "Net type".toList, chars! "custom:net_type"⟩,
    ⟨chars! "ip_address", "IP address".toList, chars! "custom:ip_address"⟩]

/-- `bsm_token_in_addr_ex` (dtformats/bsm.yaml). -/
def members_bsm_token_in_addr_ex : List (Str × Kind) :=
  [(chars! "token_type", .integer),
    (chars! "net_type", .integer),
    (chars! "ip_address", .octets)]

/-- `bsm_token_ip` (dtformats/bsm.debug.yaml). -/
def debug_bsm_token_ip : List DebugInfo.Attribute :=
  [⟨chars! "token_type", "Token type".toList, chars! "hexadecimal_2digits"⟩,
    ⟨chars! "source_ip_address", "Source IP address".toList, chars! "custom:ipv4_address"⟩,
    ⟨chars! "destination_ip_address", "Destination IP address".toList, chars! "custom:ipv4_address"⟩]

/-- `bsm_token_ip` (dtformats/bsm.yaml). -/
def members_bsm_token_ip : List (Str × Kind) :=
  [(chars! "token_type", .integer),
    (chars! "unknown1", .bytes),
    (chars! "source_ip_address", .octets),
    (chars! "destination_ip_address", .octets)]

/-- `bsm_token_ipc` (dtformats/bsm.debug.yaml). -/
def debug_bsm_token_ipc : List DebugInfo.Attribute :=
  [⟨chars! "token_type", "Token type".toList, chars! "hexadecimal_2digits"⟩,
    ⟨chars! "object_type", "Object type".toList, chars! "hexadecimal_2digits"⟩,
    ⟨chars! "object_identifier", "Object identifier".toList, chars! "hexadecimal_8digits"⟩]

/-- `bsm_token_ipc` (dtformats/bsm.yaml). -/
def members_bsm_token_ipc : List (Str × Kind) :=
  [(chars! "token_type", .integer),
    (chars! "object_type", .integer),
    (chars! "object_identifier", .integer)]

/-- `bsm_token_iport` (dtformats/bsm.debug.yaml). -/
def debug_bsm_token_iport : List DebugInfo.Attribute :=
  [⟨chars! "token_type", "Token type".toList, chars! "hexadecimal_2digits"⟩,
    ⟨chars! "port_number", "Port number".toList, chars! "decimal"⟩]

/-- `bsm_token_iport` (dtformats/bsm.yaml). -/
def members_bsm_token_iport : List (Str × Kind) :=
  [(chars! "token_type", .integer),
    (chars! "port_number", .integer)]

/-- `bsm_token_opaque` (dtformats/bsm.debug.yaml). -/
def debug_bsm_token_opaque : List DebugInfo.Attribute :=
  [⟨chars! "token_type", "Token type".toList, chars! "hexadecimal_2digits"⟩,
    ⟨chars! "data_size", "Data size".toList, chars! "decimal"⟩,
    ⟨chars! "data", "Data".toList, chars! "binary_data"⟩]

/-- `bsm_token_opaque` (dtformats/bsm.yaml). -/
def members_bsm_token_opaque : List (Str × Kind) :=
  [(chars! "token_type", .integer),
    (chars! "data_size", .integer),
    (chars! "data", .bytes)]

/-- `bsm_token_other_file32` (dtformats/bsm.debug.yaml). -/
def debug_bsm_token_other_file32 : List DebugInfo.Attribute :=
  [⟨chars! "token_type", "Token type".toList, chars! "hexadecimal_2digits"⟩,
    ⟨chars! "timestamp", "Timestamp".toList, chars! "custom:posix_time"⟩,
    ⟨chars! "microseconds", "Microseconds".toList, chars! "decimal"⟩,
    ⟨chars! "name_size", "Name size".toList, chars! "decimal"⟩,
    ⟨chars! "name", "Name".toList, chars! "string"⟩]

/-- `bsm_token_other_file32` (dtformats/bsm.yaml). -/
def members_bsm_token_other_file32 : List (Str × Kind) :=
  [(chars! "token_type", .integer),
    (chars! "timestamp", .integer),
    (chars! "microseconds", .integer),
    (chars! "name_size", .integer),
    (chars! "name", .text)]

/-- `bsm_token_path` (dtformats/bsm.debug.yaml). -/
def debug_bsm_token_path : List DebugInfo.Attribute :=
  [⟨chars! "token_type", "Token type".toList, chars! "hexadecimal_2digits"⟩,
    ⟨chars! "path_size", "Path size".toList, chars! "decimal"⟩,
    ⟨chars! "path", "Path".toList, chars! "string"⟩]

/-- `bsm_token_path` (dtformats/bsm.yaml). -/
def members_bsm_token_path : List (Str × Kind) :=
  [(chars! "token_type", .integer),
    (chars! "path_size", .integer),
    (chars! "path", .text)]

/-- `bsm_token_return32` (dtformats/bsm.yaml). -/
def members_bsm_token_return32 : List (Str × Kind) :=
  [(chars! "token_type", .integer),
    (chars! "status", .integer),
    (chars! "return_value", .integer)]

/-- `bsm_token_return64` (dtformats/bsm.yaml). -/
def members_bsm_token_return64 : List (Str × Kind) :=
  [(chars! "token_type", .integer),
    (chars! "status", .integer),
    (chars! "return_value", .integer)]

/-- `bsm_token_seq` (dtformats/bsm.debug.yaml). -/
def debug_bsm_token_seq : List DebugInfo.Attribute :=
  [⟨chars! "token_type", "Token type".toList, chars! "hexadecimal_2digits"⟩,
    ⟨chars! "sequence_number", "Sequence number".toList, chars! "decimal"⟩]

/-- `bsm_token_seq` (dtformats/bsm.yaml). -/
def members_bsm_token_seq : List (Str × Kind) :=
  [(chars! "token_type", .integer),
    (chars! "sequence_number", .integer)]

/-- `bsm_token_socket_ex` (dtformats/bsm.debug.yaml). -/
def debug_bsm_token_socket_ex : List DebugInfo.Attribute :=
  [⟨chars! "token_type", "Token type".toList, chars! "hexadecimal_2digits"⟩,
    ⟨chars! "socket_domain", "Socket domain".toList, chars! "hexadecimal_4digits"⟩,
    ⟨chars! "socket_type", "Socket type".toList, chars! "hexadecimal_4digits"⟩,
    ⟨chars! "net_type", "Net type".toList, chars! "custom:net_type"⟩,
    ⟨chars! "local_port", "Local port".toList, chars! "decimal"⟩,
    ⟨chars! "local_ip_address", "Local IP address".toList, chars! "custom:ip_address"⟩,
    ⟨chars! "remote_port", "Remote port".toList, chars! "decimal"⟩,
    ⟨chars! "remote_ip_address", "Remote IP address".toList, chars! "custom:ip_address"⟩]

/-- `bsm_token_socket_ex` (dtformats/bsm.yaml). -/
def members_bsm_token_socket_ex : List (Str × Kind) :=
  [(chars! "token_type", .integer),
    (chars! "socket_domain", .integer),
    (chars! "socket_type", .integer),
    (chars! "net_type", .integer),
    (chars! "local_port", .integer),
    (chars! "local_ip_address", .octets),
    (chars! "remote_port", .integer),
    (chars! "remote_ip_address", .octets)]

/-- `bsm_token_sockinet32` (dtformats/bsm.debug.yaml). -/
def debug_bsm_token_sockinet32 : List DebugInfo.Attribute :=
  [⟨chars! "token_type", "Token type".toList, chars! "hexadecimal_2digits"⟩,
    ⟨chars! "socket_family", "Socket family".toList, chars! "hexadecimal_4digits"⟩,
    ⟨chars! "local_port", "Local port".toList, chars! "decimal"⟩,
    ⟨chars! "local_ip_address", "Local IP address".toList, chars! "custom:ipv4_address"⟩]

/-- `bsm_token_sockinet32` (dtformats/bsm.yaml). -/
def members_bsm_token_sockinet32 : List (Str × Kind) :=
  [(chars! "token_type", .integer),
    (chars! "socket_family", .integer),
    (chars! "local_port", .integer),
    (chars! "local_ip_address", .octets)]

/-- `bsm_token_sockinet64` (dtformats/bsm.debug.yaml). -/
def debug_bsm_token_sockinet64 : List DebugInfo.Attribute :=
  [⟨chars! "token_type", "Token type".toList, chars! "hexadecimal_2digits"⟩,
    ⟨chars! "socket_family", "Socket family".toList, chars! "hexadecimal_4digits"⟩,
    ⟨chars! "local_port", "Local port".toList, chars! "decimal"⟩,
    ⟨chars! "local_ip_address", "Local IP address".toList, chars! "custom:ipv6_address"⟩]

/-- `bsm_token_sockinet64` (dtformats/bsm.yaml). -/
def members_bsm_token_sockinet64 : List (Str × Kind) :=
  [(chars! "token_type", .integer),
    (chars! "socket_family", .integer),
    (chars! "local_port", .integer),
    (chars! "local_ip_address", .octets)]

/-- `bsm_token_sockunix` (dtformats/bsm.debug.yaml). -/
def debug_bsm_token_sockunix : List DebugInfo.Attribute :=
  [⟨chars! "token_type", "Token type".toList, chars! "hexadecimal_2digits"⟩,
    ⟨chars! "socket_family", "Socket family".toList, chars! "hexadecimal_4digits"⟩,
    ⟨chars! "socket_path", "Socket path".toList, chars! "string"⟩]

/-- `bsm_token_sockunix` (dtformats/bsm.yaml). -/
def members_bsm_token_sockunix : List (Str × Kind) :=
  [(chars! "token_type", .integer),
    (chars! "socket_family", .integer),
    (chars! "socket_path", .text)]

/-- `bsm_token_subject` (dtformats/bsm.debug.yaml). -/
def debug_bsm_token_subject : List DebugInfo.Attribute :=
  [⟨chars! "token_type", "Token type".toList, chars! "hexadecimal_2digits"⟩,
    ⟨chars! "audit_user_identifier", "Audit user identifier".toList, chars! "decimal"⟩,
    ⟨chars! "effective_user_identifier", "Effective user identifier".toList, chars! "decimal"⟩,
    ⟨chars! "effective_group_identifier", "Effective group identifier".toList, chars! "decimal"⟩,
    ⟨chars! "real_user_identifier", "Real user identifier".toList, chars! "decimal"⟩,
    ⟨chars! "real_group_identifier", "Real group identifier".toList, chars! "decimal"⟩,
    ⟨chars! "process_identifier", "Process identifier (PID)".toList, chars! "decimal"⟩,
    ⟨chars! "session_identifier", "Session identifier".toList, chars! "decimal"⟩,
    ⟨chars! "terminal_port", "Terminal port".toList, chars! "decimal"⟩,
    ⟨chars! "ip_address", "IP address".toList, chars! "custom:ipv4_address"⟩]

/-- `bsm_token_subject32` (dtformats/bsm.yaml). -/
def members_bsm_token_subject32 : List (Str × Kind) :=
  [(chars! "token_type", .integer),
    (chars! "audit_user_identifier", .integer),
    (chars! "effective_user_identifier", .integer),
    (chars! "effective_group_identifier", .integer),
    (chars! "real_user_identifier", .integer),
    (chars! "real_group_identifier", .integer),
    (chars! "process_identifier", .integer),
    (chars! "session_identifier", .integer),
    (chars! "terminal_port", .integer),
    (chars! "ip_address", .octets)]

/-- `bsm_token_subject_ex` (dtformats/bsm.debug.yaml). -/
def debug_bsm_token_subject_ex : List DebugInfo.Attribute :=
  [⟨chars! "token_type", "Token type".toList, chars! "hexadecimal_2digits"⟩,
    ⟨chars! "audit_user_identifier", "Audit user identifier".toList, chars! "decimal"⟩,
    ⟨chars! "effective_user_identifier", "Effective user identifier".toList, chars! "decimal"⟩,
    ⟨chars! "effective_group_identifier", "Effective group identifier".toList, chars! "decimal"⟩,
    ⟨chars! "real_user_identifier", "Real user identifier".toList, chars! "decimal"⟩,
    ⟨chars! "real_group_identifier", "Real group identifier".toList, chars! "decimal"⟩,
    ⟨chars! "process_identifier", "Process identifier (PID)".toList, chars! "decimal"⟩,
    ⟨chars! "session_identifier", "Session identifier".toList, chars! "decimal"⟩,
    ⟨chars! "terminal_port", "Terminal port".toList, chars! "decimal"⟩,
    ⟨chars! "net_type", "Net type".toList, chars! "custom:net_type"⟩,
    ⟨chars! "ip_address", "IP address".toList, chars! "custom:ip_address"⟩]

/-- `bsm_token_subject32_ex` (dtformats/bsm.yaml). -/
def members_bsm_token_subject32_ex : List (Str × Kind) :=
  [(chars! "token_type", .integer),
    (chars! "audit_user_identifier", .integer),
    (chars! "effective_user_identifier", .integer),
    (chars! "effective_group_identifier", .integer),
    (chars! "real_user_identifier", .integer),
    (chars! "real_group_identifier", .integer),
    (chars! "process_identifier", .integer),
    (chars! "session_identifier", .integer),
    (chars! "terminal_port", .integer),
    (chars! "net_type", .integer),
    (chars! "ip_address", .octets)]

/-- `bsm_token_subject64` (dtformats/bsm.yaml). -/
def members_bsm_token_subject64 : List (Str × Kind) :=
  [(chars! "token_type", .integer),
    (chars! "audit_user_identifier", .integer),
    (chars! "effective_user_identifier", .integer),
    (chars! "effective_group_identifier", .integer),
    (chars! "real_user_identifier", .integer),
    (chars! "real_group_identifier", .integer),
    (chars! "process_identifier", .integer),
    (chars! "session_identifier", .integer),
    (chars! "terminal_port", .integer),
    (chars! "ip_address", .octets)]

/-- `bsm_token_subject64_ex` (dtformats/bsm.yaml). -/
def members_bsm_token_subject64_ex : List (Str × Kind) :=
  [(chars! "token_type", .integer),
    (chars! "audit_user_identifier", .integer),
    (chars! "effective_user_identifier", .integer),
    (chars! "effective_group_identifier", .integer),
    (chars! "real_user_identifier", .integer),
    (chars! "real_group_identifier", .integer),
    (chars! "process_identifier", .integer),
    (chars! "session_identifier", .integer),
    (chars! "terminal_port", .integer),
    (chars! "net_type", .integer),
    (chars! "ip_address", .octets)]

/-- `bsm_token_text` (dtformats/bsm.debug.yaml). -/
def debug_bsm_token_text : List DebugInfo.Attribute :=
  [⟨chars! "token_type", "Token type".toList, chars! "hexadecimal_2digits"⟩,
    ⟨chars! "text_size", "Text size".toList, chars! "decimal"⟩,
    ⟨chars! "text", "Text".toList, chars! "string"⟩]

/-- `bsm_token_text` (dtformats/bsm.yaml). -/
def members_bsm_token_text : List (Str × Kind) :=
  [(chars! "token_type", .integer),
    (chars! "text_size", .integer),
    (chars! "text", .text)]

/-- `bsm_token_trailer` (dtformats/bsm.debug.yaml). -/
def debug_bsm_token_trailer : List DebugInfo.Attribute :=
  [⟨chars! "token_type", "Token type".toList, chars! "hexadecimal_2digits"⟩,
    ⟨chars! "signature", "Signature".toList, chars! "hexadecimal_4digits"⟩,
    ⟨chars! "record_size", "Record size".toList, chars! "decimal"⟩]

/-- `bsm_token_trailer` (dtformats/bsm.yaml). -/
def members_bsm_token_trailer : List (Str × Kind) :=
  [(chars! "token_type", .integer),
    (chars! "signature", .integer),
    (chars! "record_size", .integer)]

/-- `bsm_token_zonename` (dtformats/bsm.debug.yaml). -/
def debug_bsm_token_zonename : List DebugInfo.Attribute :=
  [⟨chars! "token_type", "Token type".toList, chars! "hexadecimal_2digits"⟩,
    ⟨chars! "name_size", "Name size".toList, chars! "decimal"⟩,
    ⟨chars! "name", "Name".toList, chars! "string"⟩]

/-- `bsm_token_zonename` (dtformats/bsm.yaml). -/
def members_bsm_token_zonename : List (Str × Kind) :=
  [(chars! "token_type", .integer),
    (chars! "name_size", .integer),
    (chars! "name", .text)]

/-- The structures of bsm that are shown. -/
def uses_bsm : List Use :=
  [⟨chars! "BSMEventAuditingFile", chars! "bsm_token_arg", chars! "bsm_token_arg32",
      callsBSMEventAuditingFile, debug_bsm_token_arg, members_bsm_token_arg32⟩,
    ⟨chars! "BSMEventAuditingFile", chars! "bsm_token_arg", chars! "bsm_token_arg64",
      callsBSMEventAuditingFile, debug_bsm_token_arg, members_bsm_token_arg64⟩,
    ⟨chars! "BSMEventAuditingFile", chars! "bsm_token_attr", chars! "bsm_token_attr32",
      callsBSMEventAuditingFile, debug_bsm_token_attr, members_bsm_token_attr32⟩,
    ⟨chars! "BSMEventAuditingFile", chars! "bsm_token_attr", chars! "bsm_token_attr64",
      callsBSMEventAuditingFile, debug_bsm_token_attr, members_bsm_token_attr64⟩,
    ⟨chars! "BSMEventAuditingFile", chars! "bsm_token_data", chars! "bsm_token_data",
      callsBSMEventAuditingFile, debug_bsm_token_data, members_bsm_token_data⟩,
    ⟨chars! "BSMEventAuditingFile", chars! "bsm_token_exit", chars! "bsm_token_exit",
      callsBSMEventAuditingFile, debug_bsm_token_exit, members_bsm_token_exit⟩,
    ⟨chars! "BSMEventAuditingFile", chars! "bsm_token_header", chars! "bsm_token_header32",
      callsBSMEventAuditingFile, debug_bsm_token_header, members_bsm_token_header32⟩,
    ⟨chars! "BSMEventAuditingFile", chars! "bsm_token_header_ex", chars! "bsm_token_header32_ex",
      callsBSMEventAuditingFile, debug_bsm_token_header_ex, members_bsm_token_header32_ex⟩,
    ⟨chars! "BSMEventAuditingFile", chars! "bsm_token_header", chars! "bsm_token_header64",
      callsBSMEventAuditingFile, debug_bsm_token_header, members_bsm_token_header64⟩,
    ⟨chars! "BSMEventAuditingFile", chars! "bsm_token_header_ex", chars! "bsm_token_header64_ex",
      callsBSMEventAuditingFile, debug_bsm_token_header_ex, members_bsm_token_header64_ex⟩,
    ⟨chars! "BSMEventAuditingFile", chars! "bsm_token_in_addr", chars! "bsm_token_in_addr",
      callsBSMEventAuditingFile, debug_bsm_token_in_addr, members_bsm_token_in_addr⟩,
    ⟨chars! "BSMEventAuditingFile", chars! "bsm_token_in_addr_ex", chars! "bsm_token_in_addr_ex",
      callsBSMEventAuditingFile, debug_bsm_token_in_addr_ex, members_bsm_token_in_addr_ex⟩,
    ⟨chars! "BSMEventAuditingFile", chars! "bsm_token_ip", chars! "bsm_token_ip",
      callsBSMEventAuditingFile, debug_bsm_token_ip, members_bsm_token_ip⟩,
    ⟨chars! "BSMEventAuditingFile", chars! "bsm_token_ipc", chars! "bsm_token_ipc",
      callsBSMEventAuditingFile, debug_bsm_token_ipc, members_bsm_token_ipc⟩,
    ⟨chars! "BSMEventAuditingFile", chars! "bsm_token_iport", chars! "bsm_token_iport",
      callsBSMEventAuditingFile, debug_bsm_token_iport, members_bsm_token_iport⟩,
    ⟨chars! "BSMEventAuditingFile", chars! "bsm_token_opaque", chars! "bsm_token_opaque",
      callsBSMEventAuditingFile, debug_bsm_token_opaque, members_bsm_token_opaque⟩,
    ⟨chars! "BSMEventAuditingFile", chars! "bsm_token_other_file32", chars! "bsm_token_other_file32",
      callsBSMEventAuditingFile, debug_bsm_token_other_file32, members_bsm_token_other_file32⟩,
    ⟨chars! "BSMEventAuditingFile", chars! "bsm_token_path", chars! "bsm_token_path",
      callsBSMEventAuditingFile, debug_bsm_token_path, members_bsm_token_path⟩,
    ⟨chars! "BSMEventAuditingFile", chars! "bsm_token_exit", chars! "bsm_token_return32",
      callsBSMEventAuditingFile, debug_bsm_token_exit, members_bsm_token_return32⟩,
    ⟨chars! "BSMEventAuditingFile", chars! "bsm_token_exit", chars! "bsm_token_return64",
      callsBSMEventAuditingFile, debug_bsm_token_exit, members_bsm_token_return64⟩,
    ⟨chars! "BSMEventAuditingFile", chars! "bsm_token_seq", chars! "bsm_token_seq",
      callsBSMEventAuditingFile, debug_bsm_token_seq, members_bsm_token_seq⟩,
    ⟨chars! "BSMEventAuditingFile", chars! "bsm_token_socket_ex", chars! "bsm_token_socket_ex",
      callsBSMEventAuditingFile, debug_bsm_token_socket_ex, members_bsm_token_socket_ex⟩,
    ⟨chars! "BSMEventAuditingFile", chars! "bsm_token_sockinet32", chars! "bsm_token_sockinet32",
      callsBSMEventAuditingFile, debug_bsm_token_sockinet32, members_bsm_token_sockinet32⟩,
    ⟨chars! "BSMEventAuditingFile", chars! "bsm_token_sockinet64", chars! "bsm_token_sockinet64",
      callsBSMEventAuditingFile, debug_bsm_token_sockinet64, members_bsm_token_sockinet64⟩,
    ⟨chars! "BSMEventAuditingFile", chars! "bsm_token_sockunix", chars! "bsm_token_sockunix",
      callsBSMEventAuditingFile, debug_bsm_token_sockunix, members_bsm_token_sockunix⟩,
    ⟨chars! "BSMEventAuditingFile", chars! "bsm_token_subject", chars! "bsm_token_subject32",
      callsBSMEventAuditingFile, debug_bsm_token_subject, members_bsm_token_subject32⟩,
    ⟨chars! "BSMEventAuditingFile", chars! "bsm_token_subject_ex", chars! "bsm_token_subject32_ex",
      callsBSMEventAuditingFile, debug_bsm_token_subject_ex, members_bsm_token_subject32_ex⟩,
    ⟨chars! "BSMEventAuditingFile", chars! "bsm_token_subject", chars! "bsm_token_subject64",
      callsBSMEventAuditingFile, debug_bsm_token_subject, members_bsm_token_subject64⟩,
    ⟨chars! "BSMEventAuditingFile", chars! "bsm_token_subject_ex", chars! "bsm_token_subject64_ex",
      callsBSMEventAuditingFile, debug_bsm_token_subject_ex, members_bsm_token_subject64_ex⟩,
    ⟨chars! "BSMEventAuditingFile", chars! "bsm_token_text", chars! "bsm_token_text",
      callsBSMEventAuditingFile, debug_bsm_token_text, members_bsm_token_text⟩,
    ⟨chars! "BSMEventAuditingFile", chars! "bsm_token_trailer", chars! "bsm_token_trailer",
      callsBSMEventAuditingFile, debug_bsm_token_trailer, members_bsm_token_trailer⟩,
    ⟨chars! "BSMEventAuditingFile", chars! "bsm_token_zonename", chars! "bsm_token_zonename",
      callsBSMEventAuditingFile, debug_bsm_token_zonename, members_bsm_token_zonename⟩]

/-! ### chrome_cache.yaml and chrome_cache.debug.yaml -/

/-- The custom format callbacks of `DataBlockFile` (dtformats/chrome_cache.py). -/
def callsDataBlockFile : List (Str × Str) :=
  [(chars! "array_of_decimals", chars! "_FormatArrayOfIntegersAsDecimals"),
    (chars! "cache_address", chars! "_FormatIntegerAsCacheAddress"),
    (chars! "timestamp", chars! "_FormatIntegerAsTimestamp")]

/-- `chrome_cache_data_block_file_header` (dtformats/chrome_cache.debug.yaml). -/
def debug_chrome_cache_data_block_file_header : List DebugInfo.Attribute :=
  [⟨chars! "hash", "Hash".toList, chars! "hexadecimal_8digits"⟩,
    ⟨chars! "next_address", "Next address".toList, chars! "custom:cache_address"⟩,
    ⟨chars! "rankings_node_address", "Rankings node address".toList, chars! "custom:cache_address"⟩,
    ⟨chars! "reuse_count", "Reuse count".toList, chars! "decimal"⟩,
    ⟨chars! "refetch_count", "Refetch count".toList, chars! "decimal"⟩,
    ⟨chars! "state", "State".toList, chars! "hexadecimal_8digits"⟩,
    ⟨chars! "creation_time", "Creation time".toList, chars! "custom:timestamp"⟩]

/-- `chrome_cache_data_block_file_header` (dtformats/chrome_cache.yaml). -/
def members_chrome_cache_data_block_file_header : List (Str × Kind) :=
  [(chars! "signature", .integer),
    (chars! "minor_format_version", .integer),
    (chars! "major_format_version", .integer),
    (chars! "file_number", .integer),
    (chars! "next_file_number", .integer),
    (chars! "block_size", .integer),
    (chars! "number_of_entries", .integer),
    (chars! "maximum_number_of_entries", .integer),
    (chars! "empty", .integers),
    (chars! "hints", .integers),
    (chars! "updating", .integer),
    (chars! "user", .integers),
    (chars! "allocation_bitmap", .integers)]

/-- The custom format callbacks of `IndexFile` (dtformats/chrome_cache.py). -/
def callsIndexFile : List (Str × Str) :=
  [(chars! "filename", chars! "_FormatIntegerAsDataStreamFilename"),
    (chars! "timestamp", chars! "_FormatIntegerAsTimestamp")]

/-- `chrome_cache_index_file_header` (dtformats/chrome_cache.debug.yaml). -/
def debug_chrome_cache_index_file_header : List DebugInfo.Attribute :=
  [⟨chars! "signature", "Signature".toList, chars! "hexadecimal_8digits"⟩,
    ⟨chars! "minor_format_version", "Minor format version".toList, chars! "decimal"⟩,
    ⟨chars! "major_format_version", "Major format version".toList, chars! "decimal"⟩,
    ⟨chars! "number_of_entries", "Number of entries".toList, chars! "decimal"⟩,
    ⟨chars! "stored_data_size", "Stored data size".toList, chars! "decimal"⟩,
    ⟨chars! "last_created_file_number", "Last created file number".toList, chars! "custom:filename"⟩,
    ⟨chars! "unknown1", "Unknown1".toList, chars! "hexadecimal_8digits"⟩,
    ⟨chars! "unknown2", "Unknown2".toList, chars! "hexadecimal_8digits"⟩,
    ⟨chars! "table_size", "Table size".toList, chars! "decimal"⟩,
    ⟨chars! "unknown3", "Unknown3".toList, chars! "hexadecimal_8digits"⟩,
    ⟨chars! "unknown4", "Unknown4".toList, chars! "hexadecimal_8digits"⟩,
    ⟨chars! "creation_time", "Creation time".toList, chars! "custom:timestamp"⟩]

/-- `chrome_cache_index_file_header` (dtformats/chrome_cache.yaml). -/
def members_chrome_cache_index_file_header : List (Str × Kind) :=
  [(chars! "signature", .integer),
    (chars! "minor_format_version", .integer),
    (chars! "major_format_version", .integer),
    (chars! "number_of_entries", .integer),
    (chars! "stored_data_size", .integer),
    (chars! "last_created_file_number", .integer),
    (chars! "unknown1", .integer),
    (chars! "unknown2", .integer),
    (chars! "table_size", .integer),
    (chars! "unknown3", .integer),
    (chars! "unknown4", .integer),
    (chars! "creation_time", .integer),
    (chars! "unknown5", .octets)]

/-- The structures of chrome_cache that are shown. -/
def uses_chrome_cache : List Use :=
  [⟨chars! "DataBlockFile", chars! "chrome_cache_data_block_file_header", chars! "chrome_cache_data_block_file_header",
      callsDataBlockFile, debug_chrome_cache_data_block_file_header, members_chrome_cache_data_block_file_header⟩,
    ⟨chars! "IndexFile", chars! "chrome_cache_index_file_header", chars! "chrome_cache_index_file_header",
      callsIndexFile, debug_chrome_cache_index_file_header, members_chrome_cache_index_file_header⟩]

/-! ### cups_ipp.yaml and cups_ipp.debug.yaml -/

/-- The custom format callbacks of `CupsIppFile` (dtformats/cups_ipp.py). -/
def callsCupsIppFile : List (Str × Str) :=
  [(chars! "tag_value", chars! "_FormatTagValue")]

/-- `cups_ipp_attribute` (dtformats/cups_ipp.debug.yaml). -/
def debug_cups_ipp_attribute : List DebugInfo.Attribute :=
  [⟨chars! "tag_value", "Tag value".toList, chars! "custom:tag_value"⟩,
    ⟨chars! "name_size", "Name size".toList, chars! "decimal"⟩,
    ⟨chars! "name", "Name".toList, chars! "string"⟩,
    ⟨chars! "value_data_size", "Value data size".toList, chars! "decimal"⟩,
    ⟨chars! "value_data", "Value data".toList, chars! "binary_data"⟩]

/-- `cups_ipp_attribute` (dtformats/cups_ipp.yaml). -/
def members_cups_ipp_attribute : List (Str × Kind) :=
  [(chars! "tag_value", .integer),
    (chars! "name_size", .integer),
    (chars! "name", .text),
    (chars! "value_data_size", .integer),
    (chars! "value_data", .bytes)]

/-- `cups_ipp_header` (dtformats/cups_ipp.debug.yaml). -/
def debug_cups_ipp_header : List DebugInfo.Attribute :=
  [⟨chars! "major_format_version", "Major format version".toList, chars! "decimal"⟩,
    ⟨chars! "minor_format_version", "Minor format version".toList, chars! "decimal"⟩,
    ⟨chars! "operation_identifier", "Operation identifier".toList, chars! "hexadecimal_4digits"⟩,
    ⟨chars! "request_identifier", "Request identifier".toList, chars! "hexadecimal_8digits"⟩]

/-- `cups_ipp_header` (dtformats/cups_ipp.yaml). -/
def members_cups_ipp_header : List (Str × Kind) :=
  [(chars! "major_format_version", .integer),
    (chars! "minor_format_version", .integer),
    (chars! "operation_identifier", .integer),
    (chars! "request_identifier", .integer)]

/-- The structures of cups_ipp that are shown. -/
def uses_cups_ipp : List Use :=
  [⟨chars! "CupsIppFile", chars! "cups_ipp_attribute", chars! "cups_ipp_attribute",
      callsCupsIppFile, debug_cups_ipp_attribute, members_cups_ipp_attribute⟩,
    ⟨chars! "CupsIppFile", chars! "cups_ipp_header", chars! "cups_ipp_header",
      callsCupsIppFile, debug_cups_ipp_header, members_cups_ipp_header⟩]

/-! ### detection_history.yaml and detection_history.debug.yaml -/

/-- The custom format callbacks of `WindowsDefenderScanDetectionHistoryFile` (dtformats/detection_history.py). -/
def callsWindowsDefenderScanDetectionHistoryFile : List (Str × Str) :=
  [(chars! "filetime", chars! "_FormatIntegerAsFiletime")]

/-- `detection_history_value` (dtformats/detection_history.debug.yaml). -/
def debug_detection_history_value : List DebugInfo.Attribute :=
  [⟨chars! "data_size", "Data size".toList, chars! "decimal"⟩,
    ⟨chars! "data_type", "Data type".toList, chars! "hexadecimal_8digits"⟩,
    ⟨chars! "data", "Data".toList, chars! "binary_data"⟩,
    ⟨chars! "value_filetime", "Value FILETIME".toList, chars! "custom:filetime"⟩,
    ⟨chars! "value_guid", "Value GUID".toList, chars! "uuid"⟩,
    ⟨chars! "value_integer", "Value integer".toList, chars! "decimal"⟩,
    ⟨chars! "value_string", "Value string".toList, chars! "string"⟩,
    ⟨chars! "alignment_padding", "Alignment padding".toList, chars! "binary_data"⟩]

/-- `detection_history_value_32bit` (dtformats/detection_history.yaml). -/
def members_detection_history_value_32bit : List (Str × Kind) :=
  [(chars! "data_size", .integer),
    (chars! "data_type", .integer),
    (chars! "value_integer", .integer),
    (chars! "alignment_padding", .bytes)]

/-- `detection_history_value_64bit` (dtformats/detection_history.yaml). -/
def members_detection_history_value_64bit : List (Str × Kind) :=
  [(chars! "data_size", .integer),
    (chars! "data_type", .integer),
    (chars! "value_integer", .integer),
    (chars! "alignment_padding", .bytes)]

/-- `detection_history_value_binary_data` (dtformats/detection_history.yaml). -/
def members_detection_history_value_binary_data : List (Str × Kind) :=
  [(chars! "data_size", .integer),
    (chars! "data_type", .integer),
    (chars! "data", .bytes),
    (chars! "alignment_padding", .bytes)]

/-- `detection_history_value_filetime` (dtformats/detection_history.yaml). -/
def members_detection_history_value_filetime : List (Str × Kind) :=
  [(chars! "data_size", .integer),
    (chars! "data_type", .integer),
    (chars! "value_filetime", .integer),
    (chars! "alignment_padding", .bytes)]

/-- `detection_history_value_guid` (dtformats/detection_history.yaml). -/
def members_detection_history_value_guid : List (Str × Kind) :=
  [(chars! "data_size", .integer),
    (chars! "data_type", .integer),
    (chars! "value_guid", .uuid),
    (chars! "alignment_padding", .bytes)]

/-- `detection_history_value_string` (dtformats/detection_history.yaml). -/
def members_detection_history_value_string : List (Str × Kind) :=
  [(chars! "data_size", .integer),
    (chars! "data_type", .integer),
    (chars! "value_string", .text),
    (chars! "alignment_padding", .bytes)]

/-- `threat_tracking_header` (dtformats/detection_history.debug.yaml). -/
def debug_threat_tracking_header : List DebugInfo.Attribute :=
  [⟨chars! "version", "Version".toList, chars! "decimal"⟩,
    ⟨chars! "header_size", "Header size".toList, chars! "decimal"⟩,
    ⟨chars! "values_data_size", "Values data size".toList, chars! "decimal"⟩,
    ⟨chars! "total_data_size", "Total data size".toList, chars! "decimal"⟩,
    ⟨chars! "unknown2", "Unknown2".toList, chars! "hexadecimal_8digits"⟩]

/-- `threat_tracking_header` (dtformats/detection_history.yaml). -/
def members_threat_tracking_header : List (Str × Kind) :=
  [(chars! "version", .integer),
    (chars! "header_size", .integer),
    (chars! "values_data_size", .integer),
    (chars! "total_data_size", .integer),
    (chars! "unknown2", .integer)]

/-- `threat_tracking_value` (dtformats/detection_history.debug.yaml). -/
def debug_threat_tracking_value : List DebugInfo.Attribute :=
  [⟨chars! "key_string_size", "Key string size".toList, chars! "decimal"⟩,
    ⟨chars! "key_string", "Key string".toList, chars! "string"⟩,
    ⟨chars! "value_type", "Value type".toList, chars! "hexadecimal_8digits"⟩,
    ⟨chars! "value_integer", "Value integer".toList, chars! "decimal"⟩,
    ⟨chars! "value_string_size", "Value string size".toList, chars! "decimal"⟩,
    ⟨chars! "value_string", "Value string".toList, chars! "string"⟩,
    ⟨chars! "value_data", "Value data".toList, chars! "binary_data"⟩]

/-- `threat_tracking_value_8bit` (dtformats/detection_history.yaml). -/
def members_threat_tracking_value_8bit : List (Str × Kind) :=
  [(chars! "key_string_size", .integer),
    (chars! "key_string", .text),
    (chars! "value_type", .integer),
    (chars! "value_integer", .integer)]

/-- `threat_tracking_value_32bit` (dtformats/detection_history.yaml). -/
def members_threat_tracking_value_32bit : List (Str × Kind) :=
  [(chars! "key_string_size", .integer),
    (chars! "key_string", .text),
    (chars! "value_type", .integer),
    (chars! "value_integer", .integer)]

/-- `threat_tracking_value_64bit` (dtformats/detection_history.yaml). -/
def members_threat_tracking_value_64bit : List (Str × Kind) :=
  [(chars! "key_string_size", .integer),
    (chars! "key_string", .text),
    (chars! "value_type", .integer),
    (chars! "value_integer", .integer)]

/-- `threat_tracking_value_string` (dtformats/detection_history.yaml). -/
def members_threat_tracking_value_string : List (Str × Kind) :=
  [(chars! "key_string_size", .integer),
    (chars! "key_string", .text),
    (chars! "value_type", .integer),
    (chars! "value_string_size", .integer),
    (chars! "value_string", .text)]

/-- `threat_tracking_value_5bytes` (dtformats/detection_history.yaml). -/
def members_threat_tracking_value_5bytes : List (Str × Kind) :=
  [(chars! "key_string_size", .integer),
    (chars! "key_string", .text),
    (chars! "value_type", .integer),
    (chars! "value_data", .bytes)]

/-- The structures of detection_history that are shown. -/
def uses_detection_history : List Use :=
  [⟨chars! "WindowsDefenderScanDetectionHistoryFile", chars! "detection_history_value", chars! "detection_history_value_32bit",
      callsWindowsDefenderScanDetectionHistoryFile, debug_detection_history_value, members_detection_history_value_32bit⟩,
    ⟨chars! "WindowsDefenderScanDetectionHistoryFile", chars! "detection_history_value", chars! "detection_history_value_64bit",
      callsWindowsDefenderScanDetectionHistoryFile, debug_detection_history_value, members_detection_history_value_64bit⟩,
    ⟨chars! "WindowsDefenderScanDetectionHistoryFile", chars! "detection_history_value", chars! "detection_history_value_binary_data",
      callsWindowsDefenderScanDetectionHistoryFile, debug_detection_history_value, members_detection_history_value_binary_data⟩,
    ⟨chars! "WindowsDefenderScanDetectionHistoryFile", chars! "detection_history_value", chars! "detection_history_value_filetime",
      callsWindowsDefenderScanDetectionHistoryFile, debug_detection_history_value, members_detection_history_value_filetime⟩,
    ⟨chars! "WindowsDefenderScanDetectionHistoryFile", chars! "detection_history_value", chars! "detection_history_value_guid",
      callsWindowsDefenderScanDetectionHistoryFile, debug_detection_history_value, members_detection_history_value_guid⟩,
    ⟨chars! "WindowsDefenderScanDetectionHistoryFile", chars! "detection_history_value", chars! "detection_history_value_string",
      callsWindowsDefenderScanDetectionHistoryFile, debug_detection_history_value, members_detection_history_value_string⟩,
    ⟨chars! "WindowsDefenderScanDetectionHistoryFile", chars! "threat_tracking_header", chars! "threat_tracking_header",
      callsWindowsDefenderScanDetectionHistoryFile, debug_threat_tracking_header, members_threat_tracking_header⟩,
    ⟨chars! "WindowsDefenderScanDetectionHistoryFile", chars! "threat_tracking_value", chars! "threat_tracking_value_8bit",
      callsWindowsDefenderScanDetectionHistoryFile, debug_threat_tracking_value, members_threat_tracking_value_8bit⟩,
    ⟨chars! "WindowsDefenderScanDetectionHistoryFile", chars! "threat_tracking_value", chars! "threat_tracking_value_32bit",
      callsWindowsDefenderScanDetectionHistoryFile, debug_threat_tracking_value, members_threat_tracking_value_32bit⟩,
    ⟨chars! "WindowsDefenderScanDetectionHistoryFile", chars! "threat_tracking_value", chars! "threat_tracking_value_64bit",
      callsWindowsDefenderScanDetectionHistoryFile, debug_threat_tracking_value, members_threat_tracking_value_64bit⟩,
    ⟨chars! "WindowsDefenderScanDetectionHistoryFile", chars! "threat_tracking_value", chars! "threat_tracking_value_string",
      callsWindowsDefenderScanDetectionHistoryFile, debug_threat_tracking_value, members_threat_tracking_value_string⟩,
    ⟨chars! "WindowsDefenderScanDetectionHistoryFile", chars! "threat_tracking_value", chars! "threat_tracking_value_5bytes",
      callsWindowsDefenderScanDetectionHistoryFile, debug_threat_tracking_value, members_threat_tracking_value_5bytes⟩]

/-! ### firefox_cache1.yaml and firefox_cache1.debug.yaml -/

/-- The custom format callbacks of `CacheMapFile` (dtformats/firefox_cache1.py). -/
def callsCacheMapFile : List (Str × Str) :=
  [(chars! "array_of_decimals", chars! "_FormatArrayOfIntegersAsDecimals"),
    (chars! "cache_location", chars! "_FormatCacheLocation")]

/-- `firefox_cache1_map_header` (dtformats/firefox_cache1.debug.yaml). -/
def debug_firefox_cache1_map_header : List DebugInfo.Attribute :=
  [⟨chars! "major_format_version", "Major format version".toList, chars! "decimal"⟩,
    ⟨chars! "minor_format_version", "Minor format version".toList, chars! "decimal"⟩,
    ⟨chars! "data_size", "Data size".toList, chars! "decimal"⟩,
    ⟨chars! "number_of_entries", "Number of entries".toList, chars! "decimal"⟩,
    ⟨chars! "is_dirty_flag", "Is dirty flag".toList, chars! "decimal"⟩,
    ⟨chars! "number_of_records", "Number of records".toList, chars! "decimal"⟩,
    ⟨chars! "eviction_ranks", "Eviction ranks".toList, chars! "custom:array_of_decimals"⟩,
    ⟨chars! "bucket_usage", "Bucket usage".toList, chars! "custom:array_of_decimals"⟩]

/-- `firefox_cache1_map_header` (dtformats/firefox_cache1.yaml). -/
def members_firefox_cache1_map_header : List (Str × Kind) :=
  [(chars! "major_format_version", .integer),
    (chars! "minor_format_version", .integer),
    (chars! "data_size", .integer),
    (chars! "number_of_entries", .integer),
    (chars! "is_dirty_flag", .integer),
    (chars! "number_of_records", .integer),
    (chars! "eviction_ranks", .integers),
    (chars! "bucket_usage", .integers)]

/-- `firefox_cache1_map_record` (dtformats/firefox_cache1.debug.yaml). -/
def debug_firefox_cache1_map_record : List DebugInfo.Attribute :=
  [⟨chars! "hash_number", "Hash number".toList, chars! "decimal"⟩,
    ⟨chars! "eviction_rank", "Eviction rank".toList, chars! "decimal"⟩,
    ⟨chars! "data_location", "Data location".toList, chars! "custom:cache_lcation"⟩,
    ⟨chars! "metadata_location", "Metadata location".toList, chars! "custom:cache_lcation"⟩]

/-- `firefox_cache1_map_record` (dtformats/firefox_cache1.yaml). -/
def members_firefox_cache1_map_record : List (Str × Kind) :=
  [(chars! "hash_number", .integer),
    (chars! "eviction_rank", .integer),
    (chars! "data_location", .integer),
    (chars! "metadata_location", .integer)]

/-- The custom format callbacks of `CacheBlockFile` (dtformats/firefox_cache1.py). -/
def callsCacheBlockFile : List (Str × Str) :=
  [(chars! "cache_location", chars! "_FormatCacheLocation"),
    (chars! "posix_time", chars! "_FormatIntegerAsPosixTime")]

/-- `firefox_cache1_entry` (dtformats/firefox_cache1.debug.yaml). -/
def debug_firefox_cache1_entry : List DebugInfo.Attribute :=
  [⟨chars! "major_format_version", "Major format version".toList, chars! "decimal"⟩,
    ⟨chars! "minor_format_version", "Minor format version".toList, chars! "decimal"⟩,
    ⟨chars! "location", "Location".toList, chars! "custom:cache_lcation"⟩,
    ⟨chars! "fetch_count", "Fetch count".toList, chars! "decimal"⟩,
    ⟨chars! "last_fetched_time", "Last fetched time".toList, chars! "custom:posix_time"⟩,
    ⟨chars! "last_modified_time", "Last modified time".toList, chars! "custom:posix_time"⟩,
    ⟨chars! "cached_data_size", "Cached data size".toList, chars! "decimal"⟩,
    ⟨chars! "request_size", "Request size".toList, chars! "decimal"⟩,
    ⟨chars! "information_size", "Information size".toList, chars! "decimal"⟩,
    ⟨chars! "request", "Request".toList, chars! "string"⟩,
    ⟨chars! "information", "Information".toList, chars! "binary_data"⟩]

/-- `firefox_cache1_entry` (dtformats/firefox_cache1.yaml). -/
def members_firefox_cache1_entry : List (Str × Kind) :=
  [(chars! "major_format_version", .integer),
    (chars! "minor_format_version", .integer),
    (chars! "location", .integer),
    (chars! "fetch_count", .integer),
    (chars! "last_fetched_time", .integer),
    (chars! "last_modified_time", .integer),
    (chars! "expiration_time", .integer),
    (chars! "cached_data_size", .integer),
    (chars! "request_size", .integer),
    (chars! "information_size", .integer),
    (chars! "request", .text),
    (chars! "information", .bytes)]

/-- The structures of firefox_cache1 that are shown. -/
def uses_firefox_cache1 : List Use :=
  [⟨chars! "CacheMapFile", chars! "firefox_cache1_map_header", chars! "firefox_cache1_map_header",
      callsCacheMapFile, debug_firefox_cache1_map_header, members_firefox_cache1_map_header⟩,
    ⟨chars! "CacheMapFile", chars! "firefox_cache1_map_record", chars! "firefox_cache1_map_record",
      callsCacheMapFile, debug_firefox_cache1_map_record, members_firefox_cache1_map_record⟩,
    ⟨chars! "CacheBlockFile", chars! "firefox_cache1_entry", chars! "firefox_cache1_entry",
      callsCacheBlockFile, debug_firefox_cache1_entry, members_firefox_cache1_entry⟩]

/-! ### fseventsd.yaml and fseventsd.debug.yaml -/

/-- The custom format callbacks of `FseventsFile` (dtformats/fseventsd.py). -/
def callsFseventsFile : List (Str × Str) :=
  [(chars! "signature", chars! "_FormatStreamAsString")]

/-- `dls_page_header` (dtformats/fseventsd.debug.yaml). -/
def debug_dls_page_header : List DebugInfo.Attribute :=
  [⟨chars! "signature", "Signature".toList, chars! "custom:signature"⟩,
    ⟨chars! "unknown1", "Unknown1".toList, chars! "binary_data"⟩,
    ⟨chars! "page_size", "Page size".toList, chars! "decimal"⟩]

/-- `dls_page_header` (dtformats/fseventsd.yaml). -/
def members_dls_page_header : List (Str × Kind) :=
  [(chars! "signature", .bytes),
    (chars! "unknown1", .bytes),
    (chars! "page_size", .integer)]

/-- `dls_record` (dtformats/fseventsd.debug.yaml). -/
def debug_dls_record : List DebugInfo.Attribute :=
  [⟨chars! "path", "Path".toList, chars! "string"⟩,
    ⟨chars! "event_identifier", "Event identifier".toList, chars! "decimal"⟩,
    ⟨chars! "flags", "Flags".toList, chars! "hexadecimal_4digits"⟩,
    ⟨chars! "node_identifier", "Node identifier".toList, chars! "decimal"⟩]

/-- `dls_record_v1` (dtformats/fseventsd.yaml). -/
def members_dls_record_v1 : List (Str × Kind) :=
  [(chars! "path", .text),
    (chars! "event_identifier", .integer),
    (chars! "flags", .integer)]

/-- `dls_record_v2` (dtformats/fseventsd.yaml). -/
def members_dls_record_v2 : List (Str × Kind) :=
  [(chars! "path", .text),
    (chars! "event_identifier", .integer),
    (chars! "flags", .integer),
    (chars! "node_identifier", .integer)]

/-- The structures of fseventsd that are shown. -/
def uses_fseventsd : List Use :=
  [⟨chars! "FseventsFile", chars! "dls_page_header", chars! "dls_page_header",
      callsFseventsFile, debug_dls_page_header, members_dls_page_header⟩,
    ⟨chars! "FseventsFile", chars! "dls_record", chars! "dls_record_v1",
      callsFseventsFile, debug_dls_record, members_dls_record_v1⟩,
    ⟨chars! "FseventsFile", chars! "dls_record", chars! "dls_record_v2",
      callsFseventsFile, debug_dls_record, members_dls_record_v2⟩]

/-! ### gzipfile.yaml and gzipfile.debug.yaml -/

/-- The custom format callbacks of `GZipFile` (dtformats/gzipfile.py). -/
def callsGZipFile : List (Str × Str) :=
  [(chars! "posix_time", chars! "_FormatIntegerAsPosixTime")]

/-- `gzip_member_footer` (dtformats/gzipfile.debug.yaml). -/
def debug_gzip_member_footer : List DebugInfo.Attribute :=
  [⟨chars! "checksum", "Checksum".toList, chars! "hexadecimal_8digits"⟩,
    ⟨chars! "uncompressed_data_size", "Uncompressed data size".toList, chars! "decimal"⟩]

/-- `gzip_member_footer` (dtformats/gzipfile.yaml). -/
def members_gzip_member_footer : List (Str × Kind) :=
  [(chars! "checksum", .integer),
    (chars! "uncompressed_data_size", .integer)]

/-- `gzip_member_header` (dtformats/gzipfile.debug.yaml). -/
def debug_gzip_member_header : List DebugInfo.Attribute :=
  [⟨chars! "signature", "Signature".toList, chars! "hexadecimal_4digits"⟩,
    ⟨chars! "compression_method", "Compression method".toList, chars! "decimal"⟩,
    ⟨chars! "flags", "Flags".toList, chars! "hexadecimal_2digits"⟩,
    ⟨chars! "modification_time", "Modification time".toList, chars! "custom:posix_time"⟩,
    ⟨chars! "operating_system", "Operating system".toList, chars! "decimal"⟩,
    ⟨chars! "compression_flags", "Compression flags".toList, chars! "hexadecimal_2digits"⟩]

/-- `gzip_member_header` (dtformats/gzipfile.yaml). -/
def members_gzip_member_header : List (Str × Kind) :=
  [(chars! "signature", .integer),
    (chars! "compression_method", .integer),
    (chars! "flags", .integer),
    (chars! "modification_time", .integer),
    (chars! "compression_flags", .integer),
    (chars! "operating_system", .integer)]

/-- The structures of gzipfile that are shown. -/
def uses_gzipfile : List Use :=
  [⟨chars! "GZipFile", chars! "gzip_member_footer", chars! "gzip_member_footer",
      callsGZipFile, debug_gzip_member_footer, members_gzip_member_footer⟩,
    ⟨chars! "GZipFile", chars! "gzip_member_header", chars! "gzip_member_header",
      callsGZipFile, debug_gzip_member_header, members_gzip_member_header⟩]

/-! ### job.yaml and job.debug.yaml -/

/-- The custom format callbacks of `WindowsTaskSchedulerJobFile` (dtformats/job.py). -/
def callsWindowsTaskSchedulerJobFile : List (Str × Str) :=
  [(chars! "data_stream", chars! "_FormatDataStream"),
    (chars! "date", chars! "_FormatDate"),
    (chars! "interval_in_milliseconds", chars! "_FormatIntegerAsIntervalInMilliseconds"),
    (chars! "interval_in_minutes", chars! "_FormatIntegerAsIntervalInMinutes"),
    (chars! "product_version", chars! "_FormatIntegerAsProductVersion"),
    (chars! "system_time", chars! "_FormatSystemTime"),
    (chars! "time", chars! "_FormatTime")]

/-- `job_fixed_length_data_section` (dtformats/job.debug.yaml). -/
def debug_job_fixed_length_data_section : List DebugInfo.Attribute :=
  [⟨chars! "product_version", "Product version".toList, chars! "custom:product_version"⟩,
    ⟨chars! "format_version", "Format version".toList, chars! "decimal"⟩,
    ⟨chars! "job_identifier", "Job identifier".toList, chars! "uuid"⟩,
    ⟨chars! "application_name_offset", "Application name offset".toList, chars! "hexadecimal_4digits"⟩,
    ⟨chars! "triggers_offset", "Triggers offset".toList, chars! "hexadecimal_4digits"⟩,
    ⟨chars! "error_retry_count", "Error retry count".toList, chars! "decimal"⟩,
    ⟨chars! "error_retry_interval", "Error retry interval".toList, chars! "custom:interval_in_minutes"⟩,
    ⟨chars! "idle_deadline", "Idle deadline".toList, chars! "custom:interval_in_minutes"⟩,
    ⟨chars! "idle_wait", "Idle wait".toList, chars! "custom:interval_in_minutes"⟩,
    ⟨chars! "priority", "Priority".toList, chars! "hexadecimal_8digits"⟩,
    ⟨chars! "maximum_run_time", "Maximum run time".toList, chars! "custom:interval_in_milliseconds"⟩,
    ⟨chars! "exit_code", "Exit code".toList, chars! "hexadecimal_8digits"⟩,
    ⟨chars! "status", "Status".toList, chars! "hexadecimal_8digits"⟩,
    ⟨chars! "flags", "Flags".toList, chars! "hexadecimal_8digits"⟩,
    ⟨chars! "last_run_time", "Last run time".toList, chars! "custom:system_time"⟩]

/-- `job_fixed_length_data_section` (dtformats/job.yaml). -/
def members_job_fixed_length_data_section : List (Str × Kind) :=
  [(chars! "product_version", .integer),
    (chars! "format_version", .integer),
    (chars! "job_identifier", .uuid),
    (chars! "application_name_offset", .integer),
    (chars! "triggers_offset", .integer),
    (chars! "error_retry_count", .integer),
    (chars! "error_retry_interval", .integer),
    (chars! "idle_deadline", .integer),
    (chars! "idle_wait", .integer),
    (chars! "priority", .integer),
    (chars! "maximum_run_time", .integer),
    (chars! "exit_code", .integer),
    (chars! "status", .integer),
    (chars! "flags", .integer),
    (chars! "last_run_time", .nested)]

/-- `job_variable_length_data_section` (dtformats/job.debug.yaml). -/
def debug_job_variable_length_data_section : List DebugInfo.Attribute :=
  [⟨chars! "running_instance_count", "Running instance count".toList, chars! "decimal"⟩,
    ⟨chars! "application_name", "Application name".toList, chars! "string"⟩,
    ⟨chars! "parameters", "Parameters".toList, chars! "string"⟩,
    ⟨chars! "working_directory", "Working directory".toList, chars! "string"⟩,
    ⟨chars! "author", "Author".toList, chars! "string"⟩,
    ⟨chars! "comment", "Comment".toList, chars! "string"⟩,
    ⟨chars! "user_data", "User data".toList, chars! "custom:data_stream"⟩,
    ⟨chars! "reserved_data", "Reserved data".toList, chars! "custom:data_stream"⟩,
    ⟨chars! "number_of_triggers", "Number of triggers".toList, chars! "decimal"⟩]

/-- `job_variable_length_data_section` (dtformats/job.yaml). -/
def members_job_variable_length_data_section : List (Str × Kind) :=
  [(chars! "running_instance_count", .integer),
    (chars! "application_name", .nested),
    (chars! "parameters", .nested),
    (chars! "working_directory", .nested),
    (chars! "author", .nested),
    (chars! "comment", .nested),
    (chars! "user_data", .nested),
    (chars! "reserved_data", .nested),
    (chars! "triggers", .nested)]

/-- `job_trigger` (dtformats/job.debug.yaml). -/
def debug_job_trigger : List DebugInfo.Attribute :=
  [⟨chars! "size", "Size".toList, chars! "decimal"⟩,
    ⟨chars! "reserved1", "Reserved1".toList, chars! "hexadecimal_4digits"⟩,
    ⟨chars! "start_date", "Start date".toList, chars! "custom:date"⟩,
    ⟨chars! "end_date", "End date".toList, chars! "custom:date"⟩,
    ⟨chars! "start_time", "Start time".toList, chars! "custom:time"⟩,
    ⟨chars! "duration", "Duration".toList, chars! "custom:interval_in_minutes"⟩,
    ⟨chars! "interval", "Interval".toList, chars! "custom:interval_in_minutes"⟩,
    ⟨chars! "trigger_flags", "Trigger flags".toList, chars! "hexadecimal_8digits"⟩,
    ⟨chars! "trigger_type", "Trigger type".toList, chars! "hexadecimal_8digits"⟩,
    ⟨chars! "trigger_arg0", "Trigger arg0".toList, chars! "hexadecimal_4digits"⟩,
    ⟨chars! "trigger_arg1", "Trigger arg1".toList, chars! "hexadecimal_4digits"⟩,
    ⟨chars! "trigger_arg2", "Trigger arg2".toList, chars! "hexadecimal_4digits"⟩,
    ⟨chars! "trigger_padding", "Trigger padding".toList, chars! "hexadecimal_4digits"⟩,
    ⟨chars! "trigger_reserved2", "Trigger reserved2".toList, chars! "hexadecimal_4digits"⟩,
    ⟨chars! "trigger_reserved3", "Trigger reserved3".toList, chars! "hexadecimal_4digits"⟩]

/-- `job_trigger` (dtformats/job.yaml). -/
def members_job_trigger : List (Str × Kind) :=
  [(chars! "size", .integer),
    (chars! "reserved1", .integer),
    (chars! "start_date", .nested),
    (chars! "end_date", .nested),
    (chars! "start_time", .nested),
    (chars! "duration", .integer),
    (chars! "interval", .integer),
    (chars! "trigger_flags", .integer),
    (chars! "trigger_type", .integer),
    (chars! "trigger_arg0", .integer),
    (chars! "trigger_arg1", .integer),
    (chars! "trigger_arg2", .integer),
    (chars! "trigger_padding", .integer),
    (chars! "trigger_reserved2", .integer),
    (chars! "trigger_reserved3", .integer)]

/-- The structures of job that are shown. -/
def uses_job : List Use :=
  [⟨chars! "WindowsTaskSchedulerJobFile", chars! "job_fixed_length_data_section", chars! "job_fixed_length_data_section",
      callsWindowsTaskSchedulerJobFile, debug_job_fixed_length_data_section, members_job_fixed_length_data_section⟩,
    ⟨chars! "WindowsTaskSchedulerJobFile", chars! "job_variable_length_data_section", chars! "job_variable_length_data_section",
      callsWindowsTaskSchedulerJobFile, debug_job_variable_length_data_section, members_job_variable_length_data_section⟩,
    ⟨chars! "WindowsTaskSchedulerJobFile", chars! "job_trigger", chars! "job_trigger",
      callsWindowsTaskSchedulerJobFile, debug_job_trigger, members_job_trigger⟩]

/-! ### jump_list.yaml and jump_list.debug.yaml -/

/-- The custom format callbacks of `AutomaticDestinationsFile` (dtformats/jump_list.py). -/
def callsAutomaticDestinationsFile : List (Str × Str) :=
  [(chars! "filetime", chars! "_FormatIntegerAsFiletime"),
    (chars! "path_size", chars! "_FormatIntegerAsPathSize")]

/-- `dest_list_entry` (dtformats/jump_list.debug.yaml). -/
def debug_dest_list_entry : List DebugInfo.Attribute :=
  [⟨chars! "unknown1", "Unknown1".toList, chars! "hexadecimal_8digits"⟩,
    ⟨chars! "droid_volume_identifier", "Droid volume identifier".toList, chars! "uuid"⟩,
    ⟨chars! "droid_file_identifier", "Droid file identifier".toList, chars! "uuid"⟩,
    ⟨chars! "birth_droid_volume_identifier", "Birth droid volume identifier".toList, chars! "uuid"⟩,
    ⟨chars! "birth_droid_file_identifier", "Birth droid file identifier".toList, chars! "uuid"⟩,
    ⟨chars! "hostname", "Hostname".toList, chars! "string"⟩,
    ⟨chars! "entry_number", "Entry number".toList, chars! "decimal"⟩,
    ⟨chars! "unknown2", "Unknown2".toList, chars! "hexadecimal_8digits"⟩,
    ⟨chars! "unknown3", "Unknown3".toList, chars! "floating_point"⟩,
    ⟨chars! "last_modification_time", "Last modification time".toList, chars! "custom:filetime"⟩,
    ⟨chars! "pin_status", "Pin status".toList, chars! "decimal"⟩,
    ⟨chars! "unknown4", "Unknown4".toList, chars! "decimal"⟩,
    ⟨chars! "unknown5", "Unknown5".toList, chars! "hexadecimal_8digits"⟩,
    ⟨chars! "unknown6", "Unknown6".toList, chars! "hexadecimal_8digits"⟩,
    ⟨chars! "path_size", "Path size".toList, chars! "custom:path_size"⟩,
    ⟨chars! "path", "Path".toList, chars! "string"⟩,
    ⟨chars! "unknown7", "Unknown7".toList, chars! "hexadecimal_8digits"⟩]

/-- `dest_list_entry_v1` (dtformats/jump_list.yaml). -/
def members_dest_list_entry_v1 : List (Str × Kind) :=
  [(chars! "unknown1", .integer),
    (chars! "droid_volume_identifier", .uuid),
    (chars! "droid_file_identifier", .uuid),
    (chars! "birth_droid_volume_identifier", .uuid),
    (chars! "birth_droid_file_identifier", .uuid),
    (chars! "hostname", .text),
    (chars! "entry_number", .integer),
    (chars! "unknown2", .integer),
    (chars! "unknown3", .floating),
    (chars! "last_modification_time", .integer),
    (chars! "pin_status", .integer),
    (chars! "path_size", .integer),
    (chars! "path", .text)]

/-- `dest_list_entry_v2` (dtformats/jump_list.yaml). -/
def members_dest_list_entry_v2 : List (Str × Kind) :=
  [(chars! "unknown1", .integer),
    (chars! "droid_volume_identifier", .uuid),
    (chars! "droid_file_identifier", .uuid),
    (chars! "birth_droid_volume_identifier", .uuid),
    (chars! "birth_droid_file_identifier", .uuid),
    (chars! "hostname", .text),
    (chars! "entry_number", .integer),
    (chars! "unknown2", .integer),
    (chars! "unknown3", .floating),
    (chars! "last_modification_time", .integer),
    (chars! "pin_status", .integer),
    (chars! "unknown4", .integer),
    (chars! "unknown5", .integer),
    (chars! "unknown6", .integer),
    (chars! "path_size", .integer),
    (chars! "path", .text),
    (chars! "unknown7", .integer)]

/-- `dest_list_header` (dtformats/jump_list.debug.yaml). -/
def debug_dest_list_header : List DebugInfo.Attribute :=
  [⟨chars! "format_version", "Format version".toList, chars! "decimal"⟩,
    ⟨chars! "number_of_entries", "Number of entries".toList, chars! "decimal"⟩,
    ⟨chars! "number_of_pinned_entries", "Number of pinned entries".toList, chars! "decimal"⟩,
    ⟨chars! "unknown1", "Unknown1".toList, chars! "floating_point"⟩,
    ⟨chars! "last_entry_number", "Last entry number".toList, chars! "decimal"⟩,
    ⟨chars! "unknown2", "Unknown2".toList, chars! "hexadecimal_8digits"⟩,
    ⟨chars! "last_revision_number", "Last revision number".toList, chars! "decimal"⟩,
    ⟨chars! "unknown3", "Unknown3".toList, chars! "hexadecimal_8digits"⟩]

/-- `dest_list_header` (dtformats/jump_list.yaml). -/
def members_dest_list_header : List (Str × Kind) :=
  [(chars! "format_version", .integer),
    (chars! "number_of_entries", .integer),
    (chars! "number_of_pinned_entries", .integer),
    (chars! "unknown1", .floating),
    (chars! "last_entry_number", .integer),
    (chars! "unknown2", .integer),
    (chars! "last_revision_number", .integer),
    (chars! "unknown3", .integer)]

/-- The custom format callbacks of `CustomDestinationsFile` (dtformats/jump_list.py). -/
def callsCustomDestinationsFile : List (Str × Str) :=
  [(chars! "category_type", chars! "_FormatIntegerAsCategoryType")]

/-- `custom_category_footer` (dtformats/jump_list.debug.yaml). -/
def debug_custom_category_footer : List DebugInfo.Attribute :=
  [⟨chars! "signature", "Signature".toList, chars! "binary_data"⟩]

/-- `custom_category_footer` (dtformats/jump_list.yaml). -/
def members_custom_category_footer : List (Str × Kind) :=
  [(chars! "signature", .bytes)]

/-- `custom_category_header` (dtformats/jump_list.debug.yaml). -/
def debug_custom_category_header : List DebugInfo.Attribute :=
  [⟨chars! "category_type", "Category type".toList, chars! "custom:category_type"⟩,
    ⟨chars! "number_of_characters", "Number of characters".toList, chars! "decimal"⟩,
    ⟨chars! "cateogy_name", "Category name".toList, chars! "string"⟩,
    ⟨chars! "category_identifier", "Category identifier".toList, chars! "decimal"⟩,
    ⟨chars! "number_of_entries", "Number of entries".toList, chars! "decimal"⟩]

/-- `custom_category_header` (dtformats/jump_list.yaml) and the members that are set by the code. -/
def members_custom_category_header_type_0 : List (Str × Kind) :=
  [(chars! "category_type", .integer),
    (chars! "number_of_characters", .integer),
    (chars! "category_name", .text),
    (chars! "number_of_entries", .integer)]

/-- `custom_category_header` (dtformats/jump_list.yaml) and the members that are set by the code. -/
def members_custom_category_header_type_1 : List (Str × Kind) :=
  [(chars! "category_type", .integer),
    (chars! "category_identifier", .integer)]

/-- `custom_category_header` (dtformats/jump_list.yaml) and the members that are set by the code. -/
def members_custom_category_header_type_2 : List (Str × Kind) :=
  [(chars! "category_type", .integer),
    (chars! "number_of_entries", .integer)]

/-- `custom_file_header` (dtformats/jump_list.debug.yaml). -/
def debug_custom_file_header : List DebugInfo.Attribute :=
  [⟨chars! "format_version", "Format version".toList, chars! "decimal"⟩,
    ⟨chars! "number_of_categories", "Number of categories".toList, chars! "decimal"⟩,
    ⟨chars! "unknown1", "Unknown1".toList, chars! "hexadecimal_8digits"⟩]

/-- `custom_file_header` (dtformats/jump_list.yaml). -/
def members_custom_file_header : List (Str × Kind) :=
  [(chars! "format_version", .integer),
    (chars! "number_of_categories", .integer),
    (chars! "unknown1", .integer)]

/-- The structures of jump_list that are shown. -/
def uses_jump_list : List Use :=
  [⟨chars! "AutomaticDestinationsFile", chars! "dest_list_entry", chars! "dest_list_entry_v1",
      callsAutomaticDestinationsFile, debug_dest_list_entry, members_dest_list_entry_v1⟩,
    ⟨chars! "AutomaticDestinationsFile", chars! "dest_list_entry", chars! "dest_list_entry_v2",
      callsAutomaticDestinationsFile, debug_dest_list_entry, members_dest_list_entry_v2⟩,
    ⟨chars! "AutomaticDestinationsFile", chars! "dest_list_header", chars! "dest_list_header",
      callsAutomaticDestinationsFile, debug_dest_list_header, members_dest_list_header⟩,
    ⟨chars! "CustomDestinationsFile", chars! "custom_category_footer", chars! "custom_category_footer",
      callsCustomDestinationsFile, debug_custom_category_footer, members_custom_category_footer⟩,
    ⟨chars! "CustomDestinationsFile", chars! "custom_category_header", chars! "custom_category_header (type 0)",
      callsCustomDestinationsFile, debug_custom_category_header, members_custom_category_header_type_0⟩,
    ⟨chars! "CustomDestinationsFile", chars! "custom_category_header", chars! "custom_category_header (type 1)",
      callsCustomDestinationsFile, debug_custom_category_header, members_custom_category_header_type_1⟩,
    ⟨chars! "CustomDestinationsFile", chars! "custom_category_header", chars! "custom_category_header (type 2)",
      callsCustomDestinationsFile, debug_custom_category_header, members_custom_category_header_type_2⟩,
    ⟨chars! "CustomDestinationsFile", chars! "custom_file_header", chars! "custom_file_header",
      callsCustomDestinationsFile, debug_custom_file_header, members_custom_file_header⟩]

/-! ### keychain.yaml and keychain.debug.yaml -/

/-- The custom format callbacks of `KeychainDatabaseFile` (dtformats/keychain.py). -/
def callsKeychainDatabaseFile : List (Str × Str) :=
  [(chars! "record_offsets", chars! "_FormatRecordOffsets"),
    (chars! "record_type", chars! "_FormatIntegerAsRecordType"),
    (chars! "signature", chars! "_FormatStreamAsString"),
    (chars! "table_offsets", chars! "_FormatTableOffsets")]

/-- `keychain_file_header` (dtformats/keychain.debug.yaml). -/
def debug_keychain_file_header : List DebugInfo.Attribute :=
  [⟨chars! "signature", "Signature".toList, chars! "custom:signature"⟩,
    ⟨chars! "major_format_version", "Major format version".toList, chars! "decimal"⟩,
    ⟨chars! "minor_format_version", "Minor format version".toList, chars! "decimal"⟩,
    ⟨chars! "data_size", "Data size".toList, chars! "decimal"⟩,
    ⟨chars! "tables_array_offset", "Tables array offset".toList, chars! "hexadecimal_8digits"⟩,
    ⟨chars! "unknown1", "Unknown1".toList, chars! "hexadecimal_8digits"⟩]

/-- `keychain_file_header` (dtformats/keychain.yaml). -/
def members_keychain_file_header : List (Str × Kind) :=
  [(chars! "signature", .bytes),
    (chars! "major_format_version", .integer),
    (chars! "minor_format_version", .integer),
    (chars! "data_size", .integer),
    (chars! "tables_array_offset", .integer),
    (chars! "unknown1", .integer)]

/-- `keychain_record_header` (dtformats/keychain.debug.yaml). -/
def debug_keychain_record_header : List DebugInfo.Attribute :=
  [⟨chars! "data_size", "Data size".toList, chars! "decimal"⟩,
    ⟨chars! "record_index", "Record index".toList, chars! "decimal"⟩,
    ⟨chars! "unknown2", "Unknown2".toList, chars! "hexadecimal_8digits"⟩,
    ⟨chars! "unknown3", "Unknown3".toList, chars! "hexadecimal_8digits"⟩,
    ⟨chars! "key_data_size", "Key data size".toList, chars! "decimal"⟩,
    ⟨chars! "unknown4", "Unknown4".toList, chars! "hexadecimal_8digits"⟩]

/-- `keychain_record_header` (dtformats/keychain.yaml). -/
def members_keychain_record_header : List (Str × Kind) :=
  [(chars! "data_size", .integer),
    (chars! "record_index", .integer),
    (chars! "unknown2", .integer),
    (chars! "unknown3", .integer),
    (chars! "key_data_size", .integer),
    (chars! "unknown4", .integer)]

/-- `keychain_record_schema_indexes` (dtformats/keychain.debug.yaml). -/
def debug_keychain_record_schema_indexes : List DebugInfo.Attribute :=
  [⟨chars! "relation_identifier", "Relation identifier".toList, chars! "hexadecimal_8digits"⟩,
    ⟨chars! "index_identifier", "Index identifier".toList, chars! "hexadecimal_8digits"⟩,
    ⟨chars! "attribute_identifier", "Attribute identifier".toList, chars! "hexadecimal_8digits"⟩,
    ⟨chars! "index_type", "Index type".toList, chars! "hexadecimal_8digits"⟩,
    ⟨chars! "index_data_location", "Index data location".toList, chars! "hexadecimal_8digits"⟩]

/-- `keychain_record_schema_indexes` (dtformats/keychain.yaml). -/
def members_keychain_record_schema_indexes : List (Str × Kind) :=
  [(chars! "relation_identifier", .integer),
    (chars! "index_identifier", .integer),
    (chars! "attribute_identifier", .integer),
    (chars! "index_type", .integer),
    (chars! "index_data_location", .integer)]

/-- `keychain_table_header` (dtformats/keychain.debug.yaml). -/
def debug_keychain_table_header : List DebugInfo.Attribute :=
  [⟨chars! "data_size", "Data size".toList, chars! "decimal"⟩,
    ⟨chars! "record_type", "Record type".toList, chars! "custom:record_type"⟩,
    ⟨chars! "number_of_records", "Number of records".toList, chars! "decimal"⟩,
    ⟨chars! "record_array_offset", "Record array offset".toList, chars! "hexadecimal_8digits"⟩,
    ⟨chars! "unknown1", "Unknown1".toList, chars! "hexadecimal_8digits"⟩,
    ⟨chars! "unknown2", "Unknown2".toList, chars! "hexadecimal_8digits"⟩,
    ⟨chars! "number_of_record_offsets", "Number of records offsets".toList, chars! "decimal"⟩,
    ⟨chars! "record_offsets", "Records offsets".toList, chars! "custom:record_offsets"⟩]

/-- `keychain_table_header` (dtformats/keychain.yaml). -/
def members_keychain_table_header : List (Str × Kind) :=
  [(chars! "data_size", .integer),
    (chars! "record_type", .integer),
    (chars! "number_of_records", .integer),
    (chars! "records_array_offset", .integer),
    (chars! "unknown1", .integer),
    (chars! "unknown2", .integer),
    (chars! "number_of_record_offsets", .integer),
    (chars! "record_offsets", .integers)]

/-- `keychain_tables_array` (dtformats/keychain.debug.yaml). -/
def debug_keychain_tables_array : List DebugInfo.Attribute :=
  [⟨chars! "data_size", "Data size".toList, chars! "decimal"⟩,
    ⟨chars! "number_of_tables", "Number of tables".toList, chars! "decimal"⟩,
    ⟨chars! "table_offsets", "Table offsets".toList, chars! "custom:table_offsets"⟩]

/-- `keychain_tables_array` (dtformats/keychain.yaml). -/
def members_keychain_tables_array : List (Str × Kind) :=
  [(chars! "data_size", .integer),
    (chars! "number_of_tables", .integer),
    (chars! "table_offsets", .integers)]

/-- The structures of keychain that are shown. -/
def uses_keychain : List Use :=
  [⟨chars! "KeychainDatabaseFile", chars! "keychain_file_header", chars! "keychain_file_header",
      callsKeychainDatabaseFile, debug_keychain_file_header, members_keychain_file_header⟩,
    ⟨chars! "KeychainDatabaseFile", chars! "keychain_record_header", chars! "keychain_record_header",
      callsKeychainDatabaseFile, debug_keychain_record_header, members_keychain_record_header⟩,
    ⟨chars! "KeychainDatabaseFile", chars! "keychain_record_schema_indexes", chars! "keychain_record_schema_indexes",
      callsKeychainDatabaseFile, debug_keychain_record_schema_indexes, members_keychain_record_schema_indexes⟩,
    ⟨chars! "KeychainDatabaseFile", chars! "keychain_table_header", chars! "keychain_table_header",
      callsKeychainDatabaseFile, debug_keychain_table_header, members_keychain_table_header⟩,
    ⟨chars! "KeychainDatabaseFile", chars! "keychain_tables_array", chars! "keychain_tables_array",
      callsKeychainDatabaseFile, debug_keychain_tables_array, members_keychain_tables_array⟩]

/-! ### leveldb.yaml and leveldb.debug.yaml -/

/-- The custom format callbacks of `LevelDBDatabaseFile` (dtformats/leveldb.py). -/
def callsLevelDBDatabaseFile : List (Str × Str) :=
  []

/-- `leveldb_log_block` (dtformats/leveldb.debug.yaml). -/
def debug_leveldb_log_block : List DebugInfo.Attribute :=
  [⟨chars! "checksum", "Checksum".toList, chars! "hexadecimal_8digits"⟩,
    ⟨chars! "data_size", "Record data size".toList, chars! "decimal"⟩,
    ⟨chars! "record_type", "Record type".toList, chars! "decimal"⟩,
    ⟨chars! "record_data", "Record data".toList, chars! "binary_data"⟩]

/-- `leveldb_log_block` (dtformats/leveldb.yaml). -/
def members_leveldb_log_block : List (Str × Kind) :=
  [(chars! "checksum", .integer),
    (chars! "record_data_size", .integer),
    (chars! "record_type", .integer),
    (chars! "record_data", .bytes)]

/-- `leveldb_log_value_header` (dtformats/leveldb.debug.yaml). -/
def debug_leveldb_log_value_header : List DebugInfo.Attribute :=
  [⟨chars! "sequence_number", "Sequence number".toList, chars! "decimal"⟩,
    ⟨chars! "number_of_values", "Number of values".toList, chars! "decimal"⟩]

/-- `leveldb_log_value_header` (dtformats/leveldb.yaml). -/
def members_leveldb_log_value_header : List (Str × Kind) :=
  [(chars! "sequence_number", .integer),
    (chars! "number_of_values", .integer)]

/-- `leveldb_table_block_trailer` (dtformats/leveldb.debug.yaml). -/
def debug_leveldb_table_block_trailer : List DebugInfo.Attribute :=
  [⟨chars! "compression_type", "Compression type".toList, chars! "decimal"⟩,
    ⟨chars! "checksum", "Checksum".toList, chars! "hexadecimal_8digits"⟩]

/-- `leveldb_table_block_trailer` (dtformats/leveldb.yaml). -/
def members_leveldb_table_block_trailer : List (Str × Kind) :=
  [(chars! "compression_type", .integer),
    (chars! "checksum", .integer)]

/-- `leveldb_table_footer` (dtformats/leveldb.debug.yaml). -/
def debug_leveldb_table_footer : List DebugInfo.Attribute :=
  [⟨chars! "padding", "Padding".toList, chars! "binary_data"⟩,
    ⟨chars! "signature", "Signature".toList, chars! "binary_data"⟩]

/-- `leveldb_table_footer` (dtformats/leveldb.yaml). -/
def members_leveldb_table_footer : List (Str × Kind) :=
  [(chars! "data", .bytes),
    (chars! "signature", .bytes)]

/-- The structures of leveldb that are shown. -/
def uses_leveldb : List Use :=
  [⟨chars! "LevelDBDatabaseFile", chars! "leveldb_log_block", chars! "leveldb_log_block",
      callsLevelDBDatabaseFile, debug_leveldb_log_block, members_leveldb_log_block⟩,
    ⟨chars! "LevelDBDatabaseFile", chars! "leveldb_log_value_header", chars! "leveldb_log_value_header",
      callsLevelDBDatabaseFile, debug_leveldb_log_value_header, members_leveldb_log_value_header⟩,
    ⟨chars! "LevelDBDatabaseFile", chars! "leveldb_table_block_trailer", chars! "leveldb_table_block_trailer",
      callsLevelDBDatabaseFile, debug_leveldb_table_block_trailer, members_leveldb_table_block_trailer⟩,
    ⟨chars! "LevelDBDatabaseFile", chars! "leveldb_table_footer", chars! "leveldb_table_footer",
      callsLevelDBDatabaseFile, debug_leveldb_table_footer, members_leveldb_table_footer⟩]

/-! ### recycle_bin.yaml and recycle_bin.debug.yaml -/

/-- The custom format callbacks of `RecycleBinMetadataFile` (dtformats/recycle_bin.py). -/
def callsRecycleBinMetadataFile : List (Str × Str) :=
  [(chars! "filetime", chars! "_FormatIntegerAsFiletime")]

/-- `recycle_bin_metadata_file_header` (dtformats/recycle_bin.debug.yaml). -/
def debug_recycle_bin_metadata_file_header : List DebugInfo.Attribute :=
  [⟨chars! "format_version", "Format version".toList, chars! "decimal"⟩,
    ⟨chars! "original_file_size", "Original file size".toList, chars! "decimal"⟩,
    ⟨chars! "deletion_time", "Deletion time".toList, chars! "custom:filetime"⟩]

/-- `recycle_bin_metadata_file_header` (dtformats/recycle_bin.yaml). -/
def members_recycle_bin_metadata_file_header : List (Str × Kind) :=
  [(chars! "format_version", .integer),
    (chars! "original_file_size", .integer),
    (chars! "deletion_time", .integer)]

/-- The structures of recycle_bin that are shown. -/
def uses_recycle_bin : List Use :=
  [⟨chars! "RecycleBinMetadataFile", chars! "recycle_bin_metadata_file_header", chars! "recycle_bin_metadata_file_header",
      callsRecycleBinMetadataFile, debug_recycle_bin_metadata_file_header, members_recycle_bin_metadata_file_header⟩]

/-! ### recycler.yaml and recycler.debug.yaml -/

/-- The custom format callbacks of `RecyclerInfo2File` (dtformats/recycler.py). -/
def callsRecyclerInfo2File : List (Str × Str) :=
  [(chars! "ansi_string", chars! "_FormatANSIString"),
    (chars! "filetime", chars! "_FormatIntegerAsFiletime")]

/-- `recycler_info2_file_entry` (dtformats/recycler.debug.yaml). -/
def debug_recycler_info2_file_entry : List DebugInfo.Attribute :=
  [⟨chars! "original_filename", "Original filename (ANSI)".toList, chars! "custom:ansi_string"⟩,
    ⟨chars! "index", "Index".toList, chars! "decimal"⟩,
    ⟨chars! "drive_number", "Drive number".toList, chars! "decimal"⟩,
    ⟨chars! "deletion_time", "Deletion time".toList, chars! "custom:filetime"⟩,
    ⟨chars! "original_file_size", "Original file size".toList, chars! "decimal"⟩]

/-- `recycler_info2_file_entry` (dtformats/recycler.yaml). -/
def members_recycler_info2_file_entry : List (Str × Kind) :=
  [(chars! "original_filename", .bytes),
    (chars! "index", .integer),
    (chars! "drive_number", .integer),
    (chars! "deletion_time", .integer),
    (chars! "original_file_size", .integer)]

/-- `recycler_info2_file_header` (dtformats/recycler.yaml). -/
def members_recycler_info2_file_header : List (Str × Kind) :=
  [(chars! "unknown1", .integer),
    (chars! "number_of_file_entries", .integer),
    (chars! "unknown2", .integer),
    (chars! "file_entry_size", .integer),
    (chars! "unknown3", .integer)]

/-- The structures of recycler that are shown. -/
def uses_recycler : List Use :=
  [⟨chars! "RecyclerInfo2File", chars! "recycler_info2_file_entry", chars! "recycler_info2_file_entry",
      callsRecyclerInfo2File, debug_recycler_info2_file_entry, members_recycler_info2_file_entry⟩,
    ⟨chars! "RecyclerInfo2File", chars! "recycler_info2_file_entry", chars! "recycler_info2_file_header",
      callsRecyclerInfo2File, debug_recycler_info2_file_entry, members_recycler_info2_file_header⟩]

/-! ### spotlight_storedb.yaml and spotlight_storedb.debug.yaml -/

/-- The custom format callbacks of `SpotlightStreamsMapHeaderFile` (dtformats/spotlight_storedb.py). -/
def callsSpotlightStreamsMapHeaderFile : List (Str × Str) :=
  [(chars! "signature", chars! "_FormatStreamAsString")]

/-- `spotlight_database_streams_map_header` (dtformats/spotlight_storedb.debug.yaml). -/
def debug_spotlight_database_streams_map_header : List DebugInfo.Attribute :=
  [⟨chars! "signature", "Signature".toList, chars! "custom:signature"⟩,
    ⟨chars! "unknown1", "Unknown1".toList, chars! "hexadecimal_8digits"⟩,
    ⟨chars! "unknown2", "Unknown2".toList, chars! "hexadecimal_8digits"⟩,
    ⟨chars! "unknown3", "Unknown3".toList, chars! "hexadecimal_8digits"⟩,
    ⟨chars! "unknown4", "Data size".toList, chars! "decimal"⟩,
    ⟨chars! "unknown5", "Number of buckets".toList, chars! "decimal"⟩,
    ⟨chars! "unknown6", "Number of offsets".toList, chars! "decimal"⟩,
    ⟨chars! "unknown7", "Copy of data size".toList, chars! "decimal"⟩,
    ⟨chars! "unknown8", "Copy of number of buckets".toList, chars! "decimal"⟩,
    ⟨chars! "unknown9", "Copy of number of offsets".toList, chars! "decimal"⟩,
    ⟨chars! "unknown10", "Unknown10".toList, chars! "hexadecimal_8digits"⟩,
    ⟨chars! "unknown11", "Unknown11".toList, chars! "hexadecimal_8digits"⟩,
    ⟨chars! "unknown12", "Unknown12".toList, chars! "hexadecimal_8digits"⟩]

/-- `spotlight_database_streams_map_header` (dtformats/spotlight_storedb.yaml). -/
def members_spotlight_database_streams_map_header : List (Str × Kind) :=
  [(chars! "signature", .bytes),
    (chars! "unknown1", .integer),
    (chars! "unknown2", .integer),
    (chars! "unknown3", .integer),
    (chars! "unknown4", .integer),
    (chars! "unknown5", .integer),
    (chars! "unknown6", .integer),
    (chars! "unknown7", .integer),
    (chars! "unknown8", .integer),
    (chars! "unknown9", .integer),
    (chars! "unknown10", .integer),
    (chars! "unknown11", .integer),
    (chars! "unknown12", .integer)]

/-- The custom format callbacks of `SpotlightStoreDatabaseFile` (dtformats/spotlight_storedb.py). -/
def callsSpotlightStoreDatabaseFile : List (Str × Str) :=
  [(chars! "signature", chars! "_FormatStreamAsString")]

/-- `spotlight_metadata_attribute_type` (dtformats/spotlight_storedb.debug.yaml). -/
def debug_spotlight_metadata_attribute_type : List DebugInfo.Attribute :=
  [⟨chars! "table_index", "Table index".toList, chars! "decimal"⟩,
    ⟨chars! "value_type", "Value type".toList, chars! "hexadecimal_2digits"⟩,
    ⟨chars! "property_type", "Property type".toList, chars! "hexadecimal_2digits"⟩,
    ⟨chars! "key_name", "Key name".toList, chars! "string"⟩]

/-- `spotlight_store_db_property_value11` (dtformats/spotlight_storedb.yaml). -/
def members_spotlight_store_db_property_value11 : List (Str × Kind) :=
  [(chars! "table_index", .integer),
    (chars! "value_type", .integer),
    (chars! "property_type", .integer),
    (chars! "key_name", .text)]

/-- `spotlight_metadata_attribute_type` (dtformats/spotlight_storedb.yaml) and the members that are set by the code. -/
def members_spotlight_metadata_attribute_type : List (Str × Kind) :=
  [(chars! "value_type", .integer),
    (chars! "property_type", .integer),
    (chars! "key_name", .text),
    (chars! "table_index", .integer)]

/-- `spotlight_metadata_attribute_value` (dtformats/spotlight_storedb.debug.yaml). -/
def debug_spotlight_metadata_attribute_value : List DebugInfo.Attribute :=
  [⟨chars! "table_index", "Table index".toList, chars! "decimal"⟩,
    ⟨chars! "value_name", "Value name".toList, chars! "string"⟩]

/-- `spotlight_store_db_property_value21` (dtformats/spotlight_storedb.yaml). -/
def members_spotlight_store_db_property_value21 : List (Str × Kind) :=
  [(chars! "table_index", .integer),
    (chars! "value_name", .text)]

/-- `spotlight_metadata_attribute_value` (dtformats/spotlight_storedb.yaml) and the members that are set by the code. -/
def members_spotlight_metadata_attribute_value : List (Str × Kind) :=
  [(chars! "value_name", .text),
    (chars! "table_index", .integer)]

/-- `spotlight_store_db_file_header` (dtformats/spotlight_storedb.debug.yaml). -/
def debug_spotlight_store_db_file_header : List DebugInfo.Attribute :=
  [⟨chars! "signature", "Signature".toList, chars! "custom:signature"⟩,
    ⟨chars! "flags", "Flags".toList, chars! "hexadecimal_8digits"⟩,
    ⟨chars! "unknown1", "Unknown1".toList, chars! "hexadecimal_8digits"⟩,
    ⟨chars! "unknown2", "Unknown2".toList, chars! "hexadecimal_8digits"⟩,
    ⟨chars! "unknown3", "Unknown3".toList, chars! "hexadecimal_8digits"⟩,
    ⟨chars! "unknown4", "Unknown4".toList, chars! "hexadecimal_8digits"⟩,
    ⟨chars! "unknown5", "Unknown5".toList, chars! "hexadecimal_8digits"⟩,
    ⟨chars! "unknown6", "Unknown6".toList, chars! "hexadecimal_8digits"⟩,
    ⟨chars! "unknown7", "Unknown7".toList, chars! "hexadecimal_8digits"⟩,
    ⟨chars! "map_offset", "Map offset".toList, chars! "hexadecimal_8digits"⟩,
    ⟨chars! "map_size", "Map size".toList, chars! "decimal"⟩,
    ⟨chars! "page_size", "Page size".toList, chars! "decimal"⟩,
    ⟨chars! "metadata_types_block_number", "Metadata types block number".toList, chars! "decimal"⟩,
    ⟨chars! "metadata_values_block_number", "Metadata values block number".toList, chars! "decimal"⟩,
    ⟨chars! "unknown_values41_block_number", "Unknown values 0x41 block number".toList, chars! "decimal"⟩,
    ⟨chars! "metadata_lists_block_number", "Metadata lists block number".toList, chars! "decimal"⟩,
    ⟨chars! "metadata_localized_strings_block_number", "Metadata localized strings block number".toList, chars! "decimal"⟩,
    ⟨chars! "unknown8", "Unknown8".toList, chars! "binary_data"⟩,
    ⟨chars! "path", "Path".toList, chars! "string"⟩]

/-- `spotlight_store_db_file_header` (dtformats/spotlight_storedb.yaml). -/
def members_spotlight_store_db_file_header : List (Str × Kind) :=
  [(chars! "signature", .bytes),
    (chars! "flags", .integer),
    (chars! "unknown1", .integer),
    (chars! "unknown2", .integer),
    (chars! "unknown3", .integer),
    (chars! "unknown4", .integer),
    (chars! "unknown5", .integer),
    (chars! "unknown6", .integer),
    (chars! "unknown7", .integer),
    (chars! "map_offset", .integer),
    (chars! "map_size", .integer),
    (chars! "page_size", .integer),
    (chars! "metadata_types_block_number", .integer),
    (chars! "metadata_values_block_number", .integer),
    (chars! "unknown_values41_block_number", .integer),
    (chars! "metadata_lists_block_number", .integer),
    (chars! "metadata_localized_strings_block_number", .integer),
    (chars! "unknown8", .octets),
    (chars! "path", .text)]

/-- `spotlight_store_db_lz4_block_header` (dtformats/spotlight_storedb.debug.yaml). -/
def debug_spotlight_store_db_lz4_block_header : List DebugInfo.Attribute :=
  [⟨chars! "signature", "Signature".toList, chars! "custom:signature"⟩,
    ⟨chars! "uncompressed_data_size", "Uncompressed data size".toList, chars! "decimal"⟩,
    ⟨chars! "compressed_data_size", "compressed data size".toList, chars! "decimal"⟩]

/-- `spotlight_store_db_lz4_block_header` (dtformats/spotlight_storedb.yaml). -/
def members_spotlight_store_db_lz4_block_header : List (Str × Kind) :=
  [(chars! "signature", .bytes),
    (chars! "uncompressed_data_size", .integer),
    (chars! "compressed_data_size", .integer)]

/-- `spotlight_store_db_map_page_header` (dtformats/spotlight_storedb.debug.yaml). -/
def debug_spotlight_store_db_map_page_header : List DebugInfo.Attribute :=
  [⟨chars! "signature", "Signature".toList, chars! "custom:signature"⟩,
    ⟨chars! "page_size", "Page size".toList, chars! "decimal"⟩,
    ⟨chars! "number_of_map_values", "Number of map values".toList, chars! "decimal"⟩,
    ⟨chars! "unknown1", "Unknown1".toList, chars! "hexadecimal_8digits"⟩,
    ⟨chars! "unknown2", "Unknown2".toList, chars! "hexadecimal_8digits"⟩]

/-- `spotlight_store_db_map_page_header` (dtformats/spotlight_storedb.yaml). -/
def members_spotlight_store_db_map_page_header : List (Str × Kind) :=
  [(chars! "signature", .bytes),
    (chars! "page_size", .integer),
    (chars! "number_of_map_values", .integer),
    (chars! "unknown1", .integer),
    (chars! "unknown2", .integer)]

/-- `spotlight_store_db_map_page_value` (dtformats/spotlight_storedb.debug.yaml). -/
def debug_spotlight_store_db_map_page_value : List DebugInfo.Attribute :=
  [⟨chars! "unknown1", "Unknown1".toList, chars! "hexadecimal_8digits"⟩,
    ⟨chars! "block_number", "Block number".toList, chars! "decimal"⟩,
    ⟨chars! "unknown2", "Unknown2".toList, chars! "hexadecimal_8digits"⟩]

/-- `spotlight_store_db_map_page_value` (dtformats/spotlight_storedb.yaml). -/
def members_spotlight_store_db_map_page_value : List (Str × Kind) :=
  [(chars! "unknown1", .integer),
    (chars! "block_number", .integer),
    (chars! "unknown2", .integer)]

/-- `spotlight_store_db_property_page_header` (dtformats/spotlight_storedb.debug.yaml). -/
def debug_spotlight_store_db_property_page_header : List DebugInfo.Attribute :=
  [⟨chars! "signature", "Signature".toList, chars! "custom:signature"⟩,
    ⟨chars! "page_size", "Page size".toList, chars! "decimal"⟩,
    ⟨chars! "used_page_size", "Used page size".toList, chars! "decimal"⟩,
    ⟨chars! "property_table_type", "Property table type".toList, chars! "hexadecimal_8digits"⟩,
    ⟨chars! "uncompressed_page_size", "Uncompressed page size".toList, chars! "decimal"⟩]

/-- `spotlight_store_db_property_page_header` (dtformats/spotlight_storedb.yaml). -/
def members_spotlight_store_db_property_page_header : List (Str × Kind) :=
  [(chars! "signature", .bytes),
    (chars! "page_size", .integer),
    (chars! "used_page_size", .integer),
    (chars! "property_table_type", .integer),
    (chars! "uncompressed_page_size", .integer)]

/-- `spotlight_store_db_property_values_header` (dtformats/spotlight_storedb.debug.yaml). -/
def debug_spotlight_store_db_property_values_header : List DebugInfo.Attribute :=
  [⟨chars! "next_block_number", "Next block number".toList, chars! "decimal"⟩,
    ⟨chars! "unknown1", "Unknown1".toList, chars! "hexadecimal_8digits"⟩]

/-- `spotlight_store_db_property_values_header` (dtformats/spotlight_storedb.yaml). -/
def members_spotlight_store_db_property_values_header : List (Str × Kind) :=
  [(chars! "next_block_number", .integer),
    (chars! "unknown1", .integer)]

/-- The structures of spotlight_storedb that are shown. -/
def uses_spotlight_storedb : List Use :=
  [⟨chars! "SpotlightStreamsMapHeaderFile", chars! "spotlight_database_streams_map_header", chars! "spotlight_database_streams_map_header",
      callsSpotlightStreamsMapHeaderFile, debug_spotlight_database_streams_map_header, members_spotlight_database_streams_map_header⟩,
    ⟨chars! "SpotlightStoreDatabaseFile", chars! "spotlight_metadata_attribute_type", chars! "spotlight_store_db_property_value11",
      callsSpotlightStoreDatabaseFile, debug_spotlight_metadata_attribute_type, members_spotlight_store_db_property_value11⟩,
    ⟨chars! "SpotlightStoreDatabaseFile", chars! "spotlight_metadata_attribute_type", chars! "spotlight_metadata_attribute_type",
      callsSpotlightStoreDatabaseFile, debug_spotlight_metadata_attribute_type, members_spotlight_metadata_attribute_type⟩,
    ⟨chars! "SpotlightStoreDatabaseFile", chars! "spotlight_metadata_attribute_value", chars! "spotlight_store_db_property_value21",
      callsSpotlightStoreDatabaseFile, debug_spotlight_metadata_attribute_value, members_spotlight_store_db_property_value21⟩,
    ⟨chars! "SpotlightStoreDatabaseFile", chars! "spotlight_metadata_attribute_value", chars! "spotlight_metadata_attribute_value",
      callsSpotlightStoreDatabaseFile, debug_spotlight_metadata_attribute_value, members_spotlight_metadata_attribute_value⟩,
    ⟨chars! "SpotlightStoreDatabaseFile", chars! "spotlight_store_db_file_header", chars! "spotlight_store_db_file_header",
      callsSpotlightStoreDatabaseFile, debug_spotlight_store_db_file_header, members_spotlight_store_db_file_header⟩,
    ⟨chars! "SpotlightStoreDatabaseFile", chars! "spotlight_store_db_lz4_block_header", chars! "spotlight_store_db_lz4_block_header",
      callsSpotlightStoreDatabaseFile, debug_spotlight_store_db_lz4_block_header, members_spotlight_store_db_lz4_block_header⟩,
    ⟨chars! "SpotlightStoreDatabaseFile", chars! "spotlight_store_db_map_page_header", chars! "spotlight_store_db_map_page_header",
      callsSpotlightStoreDatabaseFile, debug_spotlight_store_db_map_page_header, members_spotlight_store_db_map_page_header⟩,
    ⟨chars! "SpotlightStoreDatabaseFile", chars! "spotlight_store_db_map_page_value", chars! "spotlight_store_db_map_page_value",
      callsSpotlightStoreDatabaseFile, debug_spotlight_store_db_map_page_value, members_spotlight_store_db_map_page_value⟩,
    ⟨chars! "SpotlightStoreDatabaseFile", chars! "spotlight_store_db_property_page_header", chars! "spotlight_store_db_property_page_header",
      callsSpotlightStoreDatabaseFile, debug_spotlight_store_db_property_page_header, members_spotlight_store_db_property_page_header⟩,
    ⟨chars! "SpotlightStoreDatabaseFile", chars! "spotlight_store_db_property_values_header", chars! "spotlight_store_db_property_values_header",
      callsSpotlightStoreDatabaseFile, debug_spotlight_store_db_property_values_header, members_spotlight_store_db_property_values_header⟩]

/-! ### systemd.yaml and systemd.debug.yaml -/

/-- The custom format callbacks of `SystemdJournalFile` (dtformats/systemd.py). -/
def callsSystemdJournalFile : List (Str × Str) :=
  [(chars! "entry_items", chars! "_FormatEntryItems"),
    (chars! "entry_object_offsets", chars! "_FormatEntryObjectOffsets"),
    (chars! "object_flags", chars! "_FormatIntegerAsObjectFlags"),
    (chars! "object_type", chars! "_FormatIntegerAsObjectType"),
    (chars! "posix_time", chars! "_FormatIntegerAsPosixTimeInMicroseconds"),
    (chars! "signature", chars! "_FormatStreamAsString")]

/-- `systemd_journal_data_object_values` (dtformats/systemd.debug.yaml). -/
def debug_systemd_journal_data_object_values : List DebugInfo.Attribute :=
  [⟨chars! "hash", "Hash".toList, chars! "hexadecimal_8digits"⟩,
    ⟨chars! "next_hash_offset", "Next hash offset".toList, chars! "hexadecimal_8digits"⟩,
    ⟨chars! "next_field_offset", "Next field offset".toList, chars! "hexadecimal_8digits"⟩,
    ⟨chars! "entry_offset", "Entry offset".toList, chars! "hexadecimal_8digits"⟩,
    ⟨chars! "entry_array_offset", "Entry array offset".toList, chars! "hexadecimal_8digits"⟩,
    ⟨chars! "number_of_entries", "Number of entries".toList, chars! "decimal"⟩]

/-- `systemd_journal_data_object` (dtformats/systemd.yaml). -/
def members_systemd_journal_data_object : List (Str × Kind) :=
  [(chars! "object_type", .integer),
    (chars! "object_flags", .integer),
    (chars! "reserved1", .bytes),
    (chars! "data_size", .integer),
    (chars! "hash", .integer),
    (chars! "next_hash_offset", .integer),
    (chars! "next_field_offset", .integer),
    (chars! "entry_offset", .integer),
    (chars! "entry_array_offset", .integer),
    (chars! "number_of_entries", .integer),
    (chars! "data", .bytes)]

/-- `systemd_journal_entry_array_object_values` (dtformats/systemd.debug.yaml). -/
def debug_systemd_journal_entry_array_object_values : List DebugInfo.Attribute :=
  [⟨chars! "next_entry_array_offset", "Next entry array offset".toList, chars! "hexadecimal_8digits"⟩,
    ⟨chars! "entry_object_offsets", "Entry object offsets".toList, chars! "custom:entry_object_offsets"⟩]

/-- `systemd_journal_entry_array_object` (dtformats/systemd.yaml). -/
def members_systemd_journal_entry_array_object : List (Str × Kind) :=
  [(chars! "object_type", .integer),
    (chars! "object_flags", .integer),
    (chars! "reserved1", .bytes),
    (chars! "data_size", .integer),
    (chars! "next_entry_array_offset", .integer),
    (chars! "entry_object_offsets", .integers)]

/-- `systemd_journal_entry_object_values` (dtformats/systemd.debug.yaml). -/
def debug_systemd_journal_entry_object_values : List DebugInfo.Attribute :=
  [⟨chars! "sequence_number", "Sequence number".toList, chars! "decimal"⟩,
    ⟨chars! "real_time", "Real time".toList, chars! "custom:posix_time"⟩,
    ⟨chars! "monotonic", "Monotonic".toList, chars! "hexadecimal_8digits"⟩,
    ⟨chars! "boot_identifier", "Boot identifier".toList, chars! "binary_data"⟩,
    ⟨chars! "xor_hash", "XOR hash".toList, chars! "hexadecimal_8digits"⟩,
    ⟨chars! "entry_items", "Entry items".toList, chars! "custom:entry_items"⟩]

/-- `systemd_journal_entry_object` (dtformats/systemd.yaml). -/
def members_systemd_journal_entry_object : List (Str × Kind) :=
  [(chars! "object_type", .integer),
    (chars! "object_flags", .integer),
    (chars! "reserved1", .bytes),
    (chars! "data_size", .integer),
    (chars! "sequence_number", .integer),
    (chars! "real_time", .integer),
    (chars! "monotonic", .integer),
    (chars! "boot_identifier", .bytes),
    (chars! "xor_hash", .integer),
    (chars! "entry_items", .structures)]

/-- `systemd_journal_file_header` (dtformats/systemd.debug.yaml). -/
def debug_systemd_journal_file_header : List DebugInfo.Attribute :=
  [⟨chars! "signature", "Signature".toList, chars! "custom:signature"⟩,
    ⟨chars! "compatible_flags", "Compatible flags".toList, chars! "hexadecimal_8digits"⟩,
    ⟨chars! "incompatible_flags", "Incompatible flags".toList, chars! "hexadecimal_8digits"⟩,
    ⟨chars! "state", "State".toList, chars! "hexadecimal_2digits"⟩,
    ⟨chars! "reserved1", "Reserved".toList, chars! "binary_data"⟩,
    ⟨chars! "file_identifier", "File identifier".toList, chars! "binary_data"⟩,
    ⟨chars! "machine_identifier", "Machine identifier".toList, chars! "binary_data"⟩,
    ⟨chars! "boot_identifier", "Boot identifier".toList, chars! "binary_data"⟩,
    ⟨chars! "sequence_number_identifier", "Sequence number identifier".toList, chars! "binary_data"⟩,
    ⟨chars! "header_size", "Header size".toList, chars! "decimal"⟩,
    ⟨chars! "arena_size", "Arena size".toList, chars! "decimal"⟩,
    ⟨chars! "data_hash_table_offset", "Data hash table offset".toList, chars! "hexadecimal_8digits"⟩,
    ⟨chars! "data_hash_table_size", "Data hash table size".toList, chars! "decimal"⟩,
    ⟨chars! "field_hash_table_offset", "Field hash table offset".toList, chars! "hexadecimal_8digits"⟩,
    ⟨chars! "field_hash_table_size", "Field hash table size".toList, chars! "decimal"⟩,
    ⟨chars! "tail_object_offset", "Tail object offset".toList, chars! "hexadecimal_8digits"⟩,
    ⟨chars! "number_of_objects", "Number of objects".toList, chars! "decimal"⟩,
    ⟨chars! "number_of_entry_objects", "Number of entry objects".toList, chars! "decimal"⟩,
    ⟨chars! "tail_entry_sequence_number", "Tail entry sequence number".toList, chars! "hexadecimal_8digits"⟩,
    ⟨chars! "head_entry_sequence_number", "Head entry sequence number".toList, chars! "hexadecimal_8digits"⟩,
    ⟨chars! "entry_array_offset", "Entry array offset".toList, chars! "hexadecimal_8digits"⟩,
    ⟨chars! "head_entry_real_time", "Head entry real time".toList, chars! "custom:posix_time"⟩,
    ⟨chars! "tail_entry_real_time", "Tail entry real time".toList, chars! "custom:posix_time"⟩,
    ⟨chars! "tail_entry_monotonic", "Tail entry monotonic".toList, chars! "hexadecimal_8digits"⟩]

/-- `systemd_journal_file_header` (dtformats/systemd.yaml). -/
def members_systemd_journal_file_header : List (Str × Kind) :=
  [(chars! "signature", .bytes),
    (chars! "compatible_flags", .integer),
    (chars! "incompatible_flags", .integer),
    (chars! "state", .integer),
    (chars! "reserved1", .bytes),
    (chars! "file_identifier", .bytes),
    (chars! "machine_identifier", .bytes),
    (chars! "boot_identifier", .bytes),
    (chars! "sequence_number_identifier", .bytes),
    (chars! "header_size", .integer),
    (chars! "arena_size", .integer),
    (chars! "data_hash_table_offset", .integer),
    (chars! "data_hash_table_size", .integer),
    (chars! "field_hash_table_offset", .integer),
    (chars! "field_hash_table_size", .integer),
    (chars! "tail_object_offset", .integer),
    (chars! "number_of_objects", .integer),
    (chars! "number_of_entry_objects", .integer),
    (chars! "tail_entry_sequence_number", .integer),
    (chars! "head_entry_sequence_number", .integer),
    (chars! "entry_array_offset", .integer),
    (chars! "head_entry_real_time", .integer),
    (chars! "tail_entry_real_time", .integer),
    (chars! "tail_entry_monotonic", .integer)]

/-- `systemd_journal_object_header` (dtformats/systemd.debug.yaml). -/
def debug_systemd_journal_object_header : List DebugInfo.Attribute :=
  [⟨chars! "object_type", "Object type".toList, chars! "custom:object_type"⟩,
    ⟨chars! "object_flags", "Object flags".toList, chars! "custom:object_flags"⟩,
    ⟨chars! "reserved1", "Reserved".toList, chars! "binary_data"⟩,
    ⟨chars! "data_sizes", "Data size".toList, chars! "decimal"⟩]

/-- `systemd_journal_object_header` (dtformats/systemd.yaml). -/
def members_systemd_journal_object_header : List (Str × Kind) :=
  [(chars! "object_type", .integer),
    (chars! "object_flags", .integer),
    (chars! "reserved1", .bytes),
    (chars! "data_size", .integer)]

/-- The structures of systemd that are shown. -/
def uses_systemd : List Use :=
  [⟨chars! "SystemdJournalFile", chars! "systemd_journal_data_object_values", chars! "systemd_journal_data_object",
      callsSystemdJournalFile, debug_systemd_journal_data_object_values, members_systemd_journal_data_object⟩,
    ⟨chars! "SystemdJournalFile", chars! "systemd_journal_entry_array_object_values", chars! "systemd_journal_entry_array_object",
      callsSystemdJournalFile, debug_systemd_journal_entry_array_object_values, members_systemd_journal_entry_array_object⟩,
    ⟨chars! "SystemdJournalFile", chars! "systemd_journal_entry_object_values", chars! "systemd_journal_entry_object",
      callsSystemdJournalFile, debug_systemd_journal_entry_object_values, members_systemd_journal_entry_object⟩,
    ⟨chars! "SystemdJournalFile", chars! "systemd_journal_file_header", chars! "systemd_journal_file_header",
      callsSystemdJournalFile, debug_systemd_journal_file_header, members_systemd_journal_file_header⟩,
    ⟨chars! "SystemdJournalFile", chars! "systemd_journal_object_header", chars! "systemd_journal_object_header",
      callsSystemdJournalFile, debug_systemd_journal_object_header, members_systemd_journal_object_header⟩,
    ⟨chars! "SystemdJournalFile", chars! "systemd_journal_object_header", chars! "systemd_journal_data_object",
      callsSystemdJournalFile, debug_systemd_journal_object_header, members_systemd_journal_data_object⟩,
    ⟨chars! "SystemdJournalFile", chars! "systemd_journal_object_header", chars! "systemd_journal_entry_array_object",
      callsSystemdJournalFile, debug_systemd_journal_object_header, members_systemd_journal_entry_array_object⟩,
    ⟨chars! "SystemdJournalFile", chars! "systemd_journal_object_header", chars! "systemd_journal_entry_object",
      callsSystemdJournalFile, debug_systemd_journal_object_header, members_systemd_journal_entry_object⟩]

/-! ### aul_dsc.yaml and aul_dsc.debug.yaml -/

/-- The custom format callbacks of `DSCFile` (dtformats/unified_logging.py). -/
def callsDSCFile : List (Str × Str) :=
  [(chars! "signature", chars! "_FormatStreamAsString")]

/-- `dsc_file_header` (dtformats/aul_dsc.debug.yaml). -/
def debug_dsc_file_header : List DebugInfo.Attribute :=
  [⟨chars! "signature", "Signature".toList, chars! "custom:signature"⟩,
    ⟨chars! "major_format_version", "Major format version".toList, chars! "decimal"⟩,
    ⟨chars! "minor_format_version", "Minor format version".toList, chars! "decimal"⟩,
    ⟨chars! "number_of_ranges", "Number of ranges".toList, chars! "decimal"⟩,
    ⟨chars! "number_of_uuids", "Number of UUIDs".toList, chars! "decimal"⟩]

/-- `dsc_file_header` (dtformats/aul_dsc.yaml). -/
def members_dsc_file_header : List (Str × Kind) :=
  [(chars! "signature", .bytes),
    (chars! "major_format_version", .integer),
    (chars! "minor_format_version", .integer),
    (chars! "number_of_ranges", .integer),
    (chars! "number_of_uuids", .integer)]

/-- `dsc_range_descriptor` (dtformats/aul_dsc.debug.yaml). -/
def debug_dsc_range_descriptor : List DebugInfo.Attribute :=
  [⟨chars! "data_offset", "Data offset".toList, chars! "hexadecimal_8digits"⟩,
    ⟨chars! "range_offset", "Range offset".toList, chars! "hexadecimal_8digits"⟩,
    ⟨chars! "range_size", "Range size".toList, chars! "decimal"⟩,
    ⟨chars! "uuid_descriptor_index", "UUID descriptor index".toList, chars! "decimal"⟩]

/-- `dsc_range_descriptor_v1` (dtformats/aul_dsc.yaml). -/
def members_dsc_range_descriptor_v1 : List (Str × Kind) :=
  [(chars! "uuid_descriptor_index", .integer),
    (chars! "range_offset", .integer),
    (chars! "data_offset", .integer),
    (chars! "range_size", .integer)]

/-- `dsc_range_descriptor_v2` (dtformats/aul_dsc.yaml). -/
def members_dsc_range_descriptor_v2 : List (Str × Kind) :=
  [(chars! "range_offset", .integer),
    (chars! "data_offset", .integer),
    (chars! "range_size", .integer),
    (chars! "uuid_descriptor_index", .integer)]

/-- `dsc_uuid_descriptor` (dtformats/aul_dsc.debug.yaml). -/
def debug_dsc_uuid_descriptor : List DebugInfo.Attribute :=
  [⟨chars! "text_offset", "Text offset".toList, chars! "hexadecimal_8digits"⟩,
    ⟨chars! "text_size", "Text size".toList, chars! "decimal"⟩,
    ⟨chars! "image_identifier", "Image identifier".toList, chars! "uuid"⟩,
    ⟨chars! "path_offset", "Path offset".toList, chars! "hexadecimal_8digits"⟩]

/-- `dsc_uuid_descriptor_v1` (dtformats/aul_dsc.yaml). -/
def members_dsc_uuid_descriptor_v1 : List (Str × Kind) :=
  [(chars! "text_offset", .integer),
    (chars! "text_size", .integer),
    (chars! "image_identifier", .uuid),
    (chars! "path_offset", .integer)]

/-- `dsc_uuid_descriptor_v2` (dtformats/aul_dsc.yaml). -/
def members_dsc_uuid_descriptor_v2 : List (Str × Kind) :=
  [(chars! "text_offset", .integer),
    (chars! "text_size", .integer),
    (chars! "image_identifier", .uuid),
    (chars! "path_offset", .integer)]

/-- The structures of aul_dsc that are shown. -/
def uses_aul_dsc : List Use :=
  [⟨chars! "DSCFile", chars! "dsc_file_header", chars! "dsc_file_header",
      callsDSCFile, debug_dsc_file_header, members_dsc_file_header⟩,
    ⟨chars! "DSCFile", chars! "dsc_range_descriptor", chars! "dsc_range_descriptor_v1",
      callsDSCFile, debug_dsc_range_descriptor, members_dsc_range_descriptor_v1⟩,
    ⟨chars! "DSCFile", chars! "dsc_range_descriptor", chars! "dsc_range_descriptor_v2",
      callsDSCFile, debug_dsc_range_descriptor, members_dsc_range_descriptor_v2⟩,
    ⟨chars! "DSCFile", chars! "dsc_uuid_descriptor", chars! "dsc_uuid_descriptor_v1",
      callsDSCFile, debug_dsc_uuid_descriptor, members_dsc_uuid_descriptor_v1⟩,
    ⟨chars! "DSCFile", chars! "dsc_uuid_descriptor", chars! "dsc_uuid_descriptor_v2",
      callsDSCFile, debug_dsc_uuid_descriptor, members_dsc_uuid_descriptor_v2⟩]

/-! ### aul_timesync.yaml and aul_timesync.debug.yaml -/

/-- The custom format callbacks of `TimesyncDatabaseFile` (dtformats/unified_logging.py). -/
def callsTimesyncDatabaseFile : List (Str × Str) :=
  [(chars! "signature", chars! "_FormatStreamAsString"),
    (chars! "timestamp", chars! "_FormatIntegerAsPosixTimeInNanoseconds")]

/-- `timesync_boot_record` (dtformats/aul_timesync.debug.yaml). -/
def debug_timesync_boot_record : List DebugInfo.Attribute :=
  [⟨chars! "signature", "Signature".toList, chars! "custom:signature"⟩,
    ⟨chars! "record_size", "Record size".toList, chars! "decimal"⟩,
    ⟨chars! "unknown1", "Unknown1".toList, chars! "hexadecimal_8digits"⟩,
    ⟨chars! "boot_identifier", "Boot identifier".toList, chars! "uuid"⟩,
    ⟨chars! "timebase_numerator", "Timebase numerator".toList, chars! "decimal"⟩,
    ⟨chars! "timebase_denominator", "Timebase denominator".toList, chars! "decimal"⟩,
    ⟨chars! "timestamp", "Timestamp".toList, chars! "custom:timestamp"⟩,
    ⟨chars! "time_zone_offset", "Time zone offset".toList, chars! "decimal"⟩,
    ⟨chars! "daylight_saving_flag", "Daylight saving flag".toList, chars! "decimal"⟩]

/-- `timesync_boot_record` (dtformats/aul_timesync.yaml). -/
def members_timesync_boot_record : List (Str × Kind) :=
  [(chars! "signature", .bytes),
    (chars! "record_size", .integer),
    (chars! "unknown1", .integer),
    (chars! "boot_identifier", .uuid),
    (chars! "timebase_numerator", .integer),
    (chars! "timebase_denominator", .integer),
    (chars! "timestamp", .integer),
    (chars! "time_zone_offset", .integer),
    (chars! "daylight_saving_flag", .integer)]

/-- `timesync_sync_record` (dtformats/aul_timesync.debug.yaml). -/
def debug_timesync_sync_record : List DebugInfo.Attribute :=
  [⟨chars! "signature", "Signature".toList, chars! "custom:signature"⟩,
    ⟨chars! "record_size", "Record size".toList, chars! "decimal"⟩,
    ⟨chars! "unknown1", "Unknown1".toList, chars! "hexadecimal_8digits"⟩,
    ⟨chars! "kernel_time", "Kernel time".toList, chars! "decimal"⟩,
    ⟨chars! "timestamp", "Timestamp".toList, chars! "custom:timestamp"⟩,
    ⟨chars! "time_zone_offset", "Time zone offset".toList, chars! "decimal"⟩,
    ⟨chars! "daylight_saving_flag", "Daylight saving flag".toList, chars! "decimal"⟩]

/-- `timesync_sync_record` (dtformats/aul_timesync.yaml). -/
def members_timesync_sync_record : List (Str × Kind) :=
  [(chars! "signature", .bytes),
    (chars! "record_size", .integer),
    (chars! "unknown1", .integer),
    (chars! "kernel_time", .integer),
    (chars! "timestamp", .integer),
    (chars! "time_zone_offset", .integer),
    (chars! "daylight_saving_flag", .integer)]

/-- The structures of aul_timesync that are shown. -/
def uses_aul_timesync : List Use :=
  [⟨chars! "TimesyncDatabaseFile", chars! "timesync_boot_record", chars! "timesync_boot_record",
      callsTimesyncDatabaseFile, debug_timesync_boot_record, members_timesync_boot_record⟩,
    ⟨chars! "TimesyncDatabaseFile", chars! "timesync_sync_record", chars! "timesync_sync_record",
      callsTimesyncDatabaseFile, debug_timesync_sync_record, members_timesync_sync_record⟩]

/-! ### aul_tracev3.yaml and aul_tracev3.debug.yaml -/

/-- The custom format callbacks of `TraceV3File` (dtformats/unified_logging.py). -/
def callsTraceV3File : List (Str × Str) :=
  [(chars! "array_of_catalog_sub_system_entries", chars! "_FormatArrayOfCatalogSubSystemEntries"),
    (chars! "array_of_catalog_uuid_entries", chars! "_FormatArrayOfCatalogUUIDEntries"),
    (chars! "array_of_chunk_tag", chars! "_FormatChunkTag"),
    (chars! "array_of_decimals", chars! "_FormatArrayOfIntegersAsDecimals"),
    (chars! "array_of_strings", chars! "_FormatArrayOfStrings"),
    (chars! "array_of_uuids", chars! "_FormatArrayOfUUIDS"),
    (chars! "chunk_tag", chars! "_FormatChunkTag"),
    (chars! "data_range", chars! "_FormatDataRange"),
    (chars! "header_flags", chars! "_FormatHeaderFlags"),
    (chars! "log_type", chars! "_FormatFirehoseTracepointLogType"),
    (chars! "posix_time", chars! "_FormatIntegerAsPosixTime"),
    (chars! "record_type", chars! "_FormatFirehoseTracepointRecordType"),
    (chars! "signature", chars! "_FormatStreamAsString"),
    (chars! "stream_type", chars! "_FormatFirehoseStreamType"),
    (chars! "tracepoint_flags", chars! "_FormatFirehoseTracepointFlags")]

/-- `tracev3_catalog` (dtformats/aul_tracev3.debug.yaml). -/
def debug_tracev3_catalog : List DebugInfo.Attribute :=
  [⟨chars! "sub_system_strings_offset", "Sub system strings offset".toList, chars! "hexadecimal_8digits"⟩,
    ⟨chars! "process_information_entries_offset", "Process information entries offset".toList, chars! "hexadecimal_8digits"⟩,
    ⟨chars! "number_of_process_information_entries", "Number of process information entries".toList, chars! "decimal"⟩,
    ⟨chars! "number_of_sub_chunks", "Number of sub chunks".toList, chars! "decimal"⟩,
    ⟨chars! "unknown1", "Unknown1".toList, chars! "binary_data"⟩,
    ⟨chars! "earliest_firehose_timestamp", "Earliest firehose timestamp".toList, chars! "decimal"⟩,
    ⟨chars! "uuids", "UUIDs".toList, chars! "custom:array_of_uuids"⟩,
    ⟨chars! "sub_system_strings", "Sub system strings".toList, chars! "custom:array_of_strings"⟩]

/-- `tracev3_catalog` (dtformats/aul_tracev3.yaml). -/
def members_tracev3_catalog : List (Str × Kind) :=
  [(chars! "sub_system_strings_offset", .integer),
    (chars! "process_information_entries_offset", .integer),
    (chars! "number_of_process_information_entries", .integer),
    (chars! "sub_chunks_offset", .integer),
    (chars! "number_of_sub_chunks", .integer),
    (chars! "unknown1", .bytes),
    (chars! "earliest_firehose_timestamp", .integer),
    (chars! "uuids", .uuids),
    (chars! "sub_system_strings", .texts)]

/-- `tracev3_catalog_process_information_entry` (dtformats/aul_tracev3.debug.yaml). -/
def debug_tracev3_catalog_process_information_entry : List DebugInfo.Attribute :=
  [⟨chars! "entry_index", "Entry index".toList, chars! "decimal"⟩,
    ⟨chars! "unknown1", "Unknown1".toList, chars! "hexadecimal_4digits"⟩,
    ⟨chars! "main_uuid_index", "Main UUID index".toList, chars! "decimal"⟩,
    ⟨chars! "main_uuid", "Main UUID".toList, chars! "uuid"⟩,
    ⟨chars! "dsc_uuid_index", "Shared-Cache Strings (dsc) UUID index".toList, chars! "decimal"⟩,
    ⟨chars! "dsc_uuid", "Shared-Cache Strings (dsc) UUID".toList, chars! "uuid"⟩,
    ⟨chars! "proc_id_upper", "proc_id (upper 64-bit)".toList, chars! "decimal"⟩,
    ⟨chars! "proc_id_lower", "proc_id (lower 32-bit)".toList, chars! "decimal"⟩,
    ⟨chars! "process_identifier", "Process identifier (PID)".toList, chars! "decimal"⟩,
    ⟨chars! "effective_user_identifier", "Effective user identifier (euid)".toList, chars! "decimal"⟩,
    ⟨chars! "unknown2", "Unknown2".toList, chars! "hexadecimal_4digits"⟩,
    ⟨chars! "number_of_uuid_entries", "Number of UUID information entries".toList, chars! "decimal"⟩,
    ⟨chars! "unknown3", "Unknown3".toList, chars! "hexadecimal_4digits"⟩,
    ⟨chars! "uuid_entries", "UUID entries".toList, chars! "custom:array_of_catalog_uuid_entries"⟩,
    ⟨chars! "number_of_sub_system_entries", "Number of sub system entries".toList, chars! "decimal"⟩,
    ⟨chars! "unknown4", "Unknown4".toList, chars! "hexadecimal_4digits"⟩,
    ⟨chars! "sub_system_entries", "Sub system entries".toList, chars! "custom:array_of_catalog_sub_system_entries"⟩,
    ⟨chars! "alignment_padding", "Alignment padding".toList, chars! "binary_data"⟩]

/-- `tracev3_catalog_process_information_entry` (dtformats/aul_tracev3.yaml) and the members that are set by the code. -/
def members_tracev3_catalog_process_information_entry : List (Str × Kind) :=
  [(chars! "entry_index", .integer),
    (chars! "unknown1", .integer),
    (chars! "main_uuid_index", .integer),
    (chars! "dsc_uuid_index", .integer),
    (chars! "proc_id_upper", .integer),
    (chars! "proc_id_lower", .integer),
    (chars! "process_identifier", .integer),
    (chars! "effective_user_identifier", .integer),
    (chars! "unknown2", .integer),
    (chars! "number_of_uuid_entries", .integer),
    (chars! "unknown3", .integer),
    (chars! "uuid_entries", .structures),
    (chars! "number_of_sub_system_entries", .integer),
    (chars! "unknown4", .integer),
    (chars! "sub_system_entries", .structures),
    (chars! "alignment_padding", .bytes),
    (chars! "main_uuid", .uuid),
    (chars! "dsc_uuid", .uuid)]

/-- `tracev3_catalog_sub_chunk` (dtformats/aul_tracev3.debug.yaml). -/
def debug_tracev3_catalog_sub_chunk : List DebugInfo.Attribute :=
  [⟨chars! "start_time", "Start time".toList, chars! "decimal"⟩,
    ⟨chars! "end_time", "End time".toList, chars! "decimal"⟩,
    ⟨chars! "uncompressed_size", "Uncompressed size".toList, chars! "decimal"⟩,
    ⟨chars! "compression_algorithm", "Compression algorithm".toList, chars! "decimal"⟩,
    ⟨chars! "number_of_indexes", "Number of indexes".toList, chars! "decimal"⟩,
    ⟨chars! "indexes", "Indexes".toList, chars! "custom:array_of_decimals"⟩,
    ⟨chars! "number_of_offsets", "Number of offsets".toList, chars! "decimal"⟩,
    ⟨chars! "offsets", "Offsets".toList, chars! "custom:array_of_decimals"⟩]

/-- `tracev3_catalog_sub_chunk` (dtformats/aul_tracev3.yaml). -/
def members_tracev3_catalog_sub_chunk : List (Str × Kind) :=
  [(chars! "start_time", .integer),
    (chars! "end_time", .integer),
    (chars! "uncompressed_size", .integer),
    (chars! "compression_algorithm", .integer),
    (chars! "number_of_indexes", .integer),
    (chars! "indexes", .integers),
    (chars! "number_of_offsets", .integer),
    (chars! "offsets", .integers),
    (chars! "alignment_padding", .bytes)]

/-- `tracev3_chunk_header` (dtformats/aul_tracev3.debug.yaml). -/
def debug_tracev3_chunk_header : List DebugInfo.Attribute :=
  [⟨chars! "chunk_tag", "Chunk tag".toList, chars! "custom:chunk_tag"⟩,
    ⟨chars! "chunk_sub_tag", "Chunk sub tag".toList, chars! "hexadecimal_8digits"⟩,
    ⟨chars! "chunk_data_size", "Chunk data size".toList, chars! "decimal"⟩]

/-- `tracev3_chunk_header` (dtformats/aul_tracev3.yaml). -/
def members_tracev3_chunk_header : List (Str × Kind) :=
  [(chars! "chunk_tag", .integer),
    (chars! "chunk_sub_tag", .integer),
    (chars! "chunk_data_size", .integer)]

/-- `tracev3_data_item` (dtformats/aul_tracev3.debug.yaml). -/
def debug_tracev3_data_item : List DebugInfo.Attribute :=
  [⟨chars! "value_type", "Value type".toList, chars! "hexadecimal_2digits"⟩,
    ⟨chars! "data_size", "Data item data size".toList, chars! "decimal"⟩,
    ⟨chars! "data", "Data item data".toList, chars! "binary_data"⟩,
    ⟨chars! "value_data_offset", "Value data offset".toList, chars! "hexadecimal_4digits"⟩,
    ⟨chars! "value_data_size", "Value data size".toList, chars! "decimal"⟩,
    ⟨chars! "private_string", "Private string value".toList, chars! "string"⟩,
    ⟨chars! "value_data", "Value data".toList, chars! "binary_data"⟩]

/-- `tracev3_data_item_with_inline_data` (dtformats/aul_tracev3.yaml) and the members that are set by the code. -/
def members_tracev3_data_item_with_inline_data : List (Str × Kind) :=
  [(chars! "value_type", .integer),
    (chars! "data_size", .integer),
    (chars! "data", .bytes),
    (chars! "value_data", .bytes)]

/-- `tracev3_firehose_tracepoint_data_time_with_value_data_range` (dtformats/aul_tracev3.yaml) and the members that are set by the code. -/
def members_tracev3_firehose_tracepoint_data_time_with_value_data_range : List (Str × Kind) :=
  [(chars! "value_type", .integer),
    (chars! "data_size", .integer),
    (chars! "value_data_offset", .integer),
    (chars! "value_data_size", .integer),
    (chars! "value_data", .bytes)]

/-- `tracev3_firehose_header` (dtformats/aul_tracev3.debug.yaml). -/
def debug_tracev3_firehose_header : List DebugInfo.Attribute :=
  [⟨chars! "proc_id_upper", "proc_id (upper 64-bit)".toList, chars! "decimal"⟩,
    ⟨chars! "proc_id_lower", "proc_id (lower 32-bit)".toList, chars! "decimal"⟩,
    ⟨chars! "ttl", "Time to live (TTL)".toList, chars! "decimal"⟩,
    ⟨chars! "collapsed", "Collapsed".toList, chars! "decimal"⟩,
    ⟨chars! "unknown1", "Unknown1".toList, chars! "hexadecimal_4digits"⟩,
    ⟨chars! "public_data_size", "Public data size".toList, chars! "decimal"⟩,
    ⟨chars! "private_data_virtual_offset", "Private data virtual offset".toList, chars! "hexadecimal_4digits"⟩,
    ⟨chars! "unknown2", "Unknown2".toList, chars! "hexadecimal_4digits"⟩,
    ⟨chars! "stream_type", "Stream type".toList, chars! "custom:stream_type"⟩,
    ⟨chars! "unknown3", "Unknown3".toList, chars! "hexadecimal_2digits"⟩,
    ⟨chars! "base_continuous_time", "Base continuous time".toList, chars! "decimal"⟩]

/-- `tracev3_firehose_header` (dtformats/aul_tracev3.yaml). -/
def members_tracev3_firehose_header : List (Str × Kind) :=
  [(chars! "proc_id_upper", .integer),
    (chars! "proc_id_lower", .integer),
    (chars! "ttl", .integer),
    (chars! "collapsed", .integer),
    (chars! "unknown1", .integer),
    (chars! "public_data_size", .integer),
    (chars! "private_data_virtual_offset", .integer),
    (chars! "unknown2", .integer),
    (chars! "stream_type", .integer),
    (chars! "unknown3", .integer),
    (chars! "base_continuous_time", .integer)]

/-- `tracev3_firehose_tracepoint` (dtformats/aul_tracev3.debug.yaml). -/
def debug_tracev3_firehose_tracepoint : List DebugInfo.Attribute :=
  [⟨chars! "record_type", "Record type".toList, chars! "custom:record_type"⟩,
    ⟨chars! "log_type", "Log type".toList, chars! "custom:log_type"⟩,
    ⟨chars! "flags", "Flags".toList, chars! "custom:tracepoint_flags"⟩,
    ⟨chars! "format_string_reference", "Format string reference".toList, chars! "hexadecimal_8digits"⟩,
    ⟨chars! "thread_identifier", "Thread identifier".toList, chars! "decimal"⟩,
    ⟨chars! "continuous_time_lower", "Continous time (lower 32-bit)".toList, chars! "decimal"⟩,
    ⟨chars! "continuous_time_upper", "Continous time (upper 16-bit)".toList, chars! "decimal"⟩,
    ⟨chars! "data_size", "Data size".toList, chars! "decimal"⟩,
    ⟨chars! "data", "Data".toList, chars! "binary_data"⟩,
    ⟨chars! "alignment_padding", "Alignment padding".toList, chars! "binary_data"⟩]

/-- `tracev3_firehose_tracepoint` (dtformats/aul_tracev3.yaml). -/
def members_tracev3_firehose_tracepoint : List (Str × Kind) :=
  [(chars! "record_type", .integer),
    (chars! "log_type", .integer),
    (chars! "flags", .integer),
    (chars! "format_string_reference", .integer),
    (chars! "thread_identifier", .integer),
    (chars! "continuous_time_lower", .integer),
    (chars! "continuous_time_upper", .integer),
    (chars! "data_size", .integer),
    (chars! "data", .bytes),
    (chars! "alignment_padding", .bytes)]

/-- `tracev3_firehose_tracepoint_activity` (dtformats/aul_tracev3.debug.yaml). -/
def debug_tracev3_firehose_tracepoint_activity : List DebugInfo.Attribute :=
  [⟨chars! "current_activity_identifier", "Current activity identifier".toList, chars! "hexadecimal_8digits"⟩,
    ⟨chars! "process_identifier", "Process identifier (PID)".toList, chars! "decimal"⟩,
    ⟨chars! "other_activity_identifier", "Other activity identifier".toList, chars! "hexadecimal_8digits"⟩,
    ⟨chars! "new_activity_identifier", "New activity identifier".toList, chars! "hexadecimal_8digits"⟩,
    ⟨chars! "load_address_lower", "UUID entry load address (lower 32-bit)".toList, chars! "hexadecimal_8digits"⟩,
    ⟨chars! "large_offset_data", "Large offset data".toList, chars! "hexadecimal_4digits"⟩,
    ⟨chars! "load_address_upper", "UUID entry load address (upper 16-bit)".toList, chars! "hexadecimal_4digits"⟩,
    ⟨chars! "uuidtext_file_identifier", "UUIDText file identifier".toList, chars! "uuid"⟩,
    ⟨chars! "large_shared_cache_data", "Large shared cache data".toList, chars! "hexadecimal_4digits"⟩]

/-- `tracev3_firehose_tracepoint_activity` (dtformats/aul_tracev3.yaml). -/
def members_tracev3_firehose_tracepoint_activity : List (Str × Kind) :=
  [(chars! "current_activity_identifier", .integer),
    (chars! "process_identifier", .integer),
    (chars! "other_activity_identifier", .integer),
    (chars! "new_activity_identifier", .integer),
    (chars! "load_address_lower", .integer),
    (chars! "large_offset_data", .integer),
    (chars! "load_address_upper", .integer),
    (chars! "uuidtext_file_identifier", .uuid),
    (chars! "large_shared_cache_data", .integer)]

/-- `tracev3_firehose_tracepoint_backtrace_data` (dtformats/aul_tracev3.debug.yaml). -/
def debug_tracev3_firehose_tracepoint_backtrace_data : List DebugInfo.Attribute :=
  [⟨chars! "unknown1", "Unknown1".toList, chars! "hexadecimal_2digits"⟩,
    ⟨chars! "unknown2", "Unknown2".toList, chars! "hexadecimal_2digits"⟩,
    ⟨chars! "number_of_identifiers", "Number of identifiers".toList, chars! "decimal"⟩,
    ⟨chars! "number_of_frames", "Number of frames".toList, chars! "decimal"⟩,
    ⟨chars! "unknown3", "Unknown3".toList, chars! "hexadecimal_2digits"⟩,
    ⟨chars! "uuids", "Identifiers".toList, chars! "custom:array_of_uuids"⟩,
    ⟨chars! "offsets", "Offsets".toList, chars! "custom:array_of_decimals"⟩,
    ⟨chars! "indexes", "Indexes".toList, chars! "custom:array_of_decimals"⟩]

/-- `tracev3_firehose_tracepoint_backtrace_data` (dtformats/aul_tracev3.yaml). -/
def members_tracev3_firehose_tracepoint_backtrace_data : List (Str × Kind) :=
  [(chars! "unknown1", .integer),
    (chars! "unknown2", .integer),
    (chars! "number_of_identifiers", .integer),
    (chars! "number_of_frames", .integer),
    (chars! "unknown3", .integer),
    (chars! "identifiers", .uuids),
    (chars! "offsets", .integers),
    (chars! "indexes", .octets)]

/-- `tracev3_firehose_tracepoint_log` (dtformats/aul_tracev3.debug.yaml). -/
def debug_tracev3_firehose_tracepoint_log : List DebugInfo.Attribute :=
  [⟨chars! "current_activity_identifier", "Current activity identifier".toList, chars! "hexadecimal_8digits"⟩,
    ⟨chars! "private_data_range", "Private data range".toList, chars! "custom:data_range"⟩,
    ⟨chars! "load_address_lower", "UUID entry load address (lower 32-bit)".toList, chars! "hexadecimal_8digits"⟩,
    ⟨chars! "large_offset_data", "Large offset data".toList, chars! "hexadecimal_4digits"⟩,
    ⟨chars! "load_address_upper", "UUID entry load address (upper 16-bit)".toList, chars! "hexadecimal_4digits"⟩,
    ⟨chars! "uuidtext_file_identifier", "UUIDText file identifier".toList, chars! "uuid"⟩,
    ⟨chars! "large_shared_cache_data", "Large shared cache data".toList, chars! "hexadecimal_4digits"⟩,
    ⟨chars! "sub_system_identifier", "Sub system identifier".toList, chars! "decimal"⟩,
    ⟨chars! "ttl", "Time to live (TTL)".toList, chars! "decimal"⟩,
    ⟨chars! "data_reference", "Data reference".toList, chars! "hexadecimal_4digits"⟩,
    ⟨chars! "unknown1", "Unknown1".toList, chars! "hexadecimal_2digits"⟩,
    ⟨chars! "number_of_data_items", "Number of data items".toList, chars! "decimal"⟩]

/-- `tracev3_firehose_tracepoint_log` (dtformats/aul_tracev3.yaml). -/
def members_tracev3_firehose_tracepoint_log : List (Str × Kind) :=
  [(chars! "current_activity_identifier", .integer),
    (chars! "private_data_range", .nested),
    (chars! "load_address_lower", .integer),
    (chars! "large_offset_data", .integer),
    (chars! "load_address_upper", .integer),
    (chars! "uuidtext_file_identifier", .uuid),
    (chars! "large_shared_cache_data", .integer),
    (chars! "sub_system_identifier", .integer),
    (chars! "ttl", .integer),
    (chars! "data_reference", .integer),
    (chars! "unknown1", .integer),
    (chars! "number_of_data_items", .integer),
    (chars! "data_items", .structures)]

/-- `tracev3_firehose_tracepoint_loss` (dtformats/aul_tracev3.debug.yaml). -/
def debug_tracev3_firehose_tracepoint_loss : List DebugInfo.Attribute :=
  [⟨chars! "start_time", "Start time".toList, chars! "decimal"⟩,
    ⟨chars! "end_time", "End time".toList, chars! "decimal"⟩,
    ⟨chars! "number_of_messages", "Number of messages".toList, chars! "decimal"⟩]

/-- `tracev3_firehose_tracepoint_loss` (dtformats/aul_tracev3.yaml). -/
def members_tracev3_firehose_tracepoint_loss : List (Str × Kind) :=
  [(chars! "start_time", .integer),
    (chars! "end_time", .integer),
    (chars! "number_of_messages", .integer)]

/-- `tracev3_firehose_tracepoint_signpost` (dtformats/aul_tracev3.debug.yaml). -/
def debug_tracev3_firehose_tracepoint_signpost : List DebugInfo.Attribute :=
  [⟨chars! "current_activity_identifier", "Current activity identifier".toList, chars! "hexadecimal_8digits"⟩,
    ⟨chars! "private_data_range", "Private data range".toList, chars! "custom:data_range"⟩,
    ⟨chars! "load_address_lower", "UUID entry load address (lower 32-bit)".toList, chars! "hexadecimal_8digits"⟩,
    ⟨chars! "large_offset_data", "Large offset data".toList, chars! "hexadecimal_4digits"⟩,
    ⟨chars! "load_address_upper", "UUID entry load address (upper 16-bit)".toList, chars! "hexadecimal_4digits"⟩,
    ⟨chars! "uuidtext_file_identifier", "UUIDText file identifier".toList, chars! "uuid"⟩,
    ⟨chars! "large_shared_cache_data", "Large shared cache data".toList, chars! "hexadecimal_4digits"⟩,
    ⟨chars! "sub_system_identifier", "Sub system identifier".toList, chars! "decimal"⟩,
    ⟨chars! "signpost_identifier", "Signpost identifier".toList, chars! "hexadecimal_8digits"⟩,
    ⟨chars! "ttl", "Time to live (TTL)".toList, chars! "decimal"⟩,
    ⟨chars! "data_reference", "Data reference".toList, chars! "hexadecimal_4digits"⟩,
    ⟨chars! "name_string_reference_lower", "Name string reference (lower 32-bit)".toList, chars! "hexadecimal_8digits"⟩,
    ⟨chars! "name_string_reference_upper", "Name string reference (upper 16-bit)".toList, chars! "hexadecimal_4digits"⟩,
    ⟨chars! "unknown1", "Unknown1".toList, chars! "hexadecimal_2digits"⟩,
    ⟨chars! "number_of_data_items", "Number of data items".toList, chars! "decimal"⟩]

/-- `tracev3_firehose_tracepoint_signpost` (dtformats/aul_tracev3.yaml). -/
def members_tracev3_firehose_tracepoint_signpost : List (Str × Kind) :=
  [(chars! "current_activity_identifier", .integer),
    (chars! "private_data_range", .nested),
    (chars! "load_address_lower", .integer),
    (chars! "large_offset_data", .integer),
    (chars! "load_address_upper", .integer),
    (chars! "uuidtext_file_identifier", .uuid),
    (chars! "large_shared_cache_data", .integer),
    (chars! "sub_system_identifier", .integer),
    (chars! "signpost_identifier", .integer),
    (chars! "ttl", .integer),
    (chars! "data_reference", .integer),
    (chars! "name_string_reference_lower", .integer),
    (chars! "name_string_reference_upper", .integer),
    (chars! "unknown1", .integer),
    (chars! "number_of_data_items", .integer),
    (chars! "data_items", .structures)]

/-- `tracev3_firehose_tracepoint_trace` (dtformats/aul_tracev3.debug.yaml). -/
def debug_tracev3_firehose_tracepoint_trace : List DebugInfo.Attribute :=
  [⟨chars! "load_address_lower", "UUID entry load address (lower 32-bit)".toList, chars! "hexadecimal_8digits"⟩,
    ⟨chars! "number_of_values", "Number of values".toList, chars! "decimal"⟩,
    ⟨chars! "value_size", "Value size".toList, chars! "decimal"⟩,
    ⟨chars! "integer", "Integer value".toList, chars! "decimal"⟩]

/-- `tracev3_firehose_tracepoint_trace` (dtformats/aul_tracev3.yaml) and the members that are set by the code. -/
def members_tracev3_firehose_tracepoint_trace : List (Str × Kind) :=
  [(chars! "load_address_lower", .integer),
    (chars! "number_of_values", .integer)]

/-- `tracev3_header_chunk` (dtformats/aul_tracev3.debug.yaml). -/
def debug_tracev3_header_chunk : List DebugInfo.Attribute :=
  [⟨chars! "timebase_numerator", "Timebase numerator".toList, chars! "decimal"⟩,
    ⟨chars! "timebase_denominator", "Timebase denominator".toList, chars! "decimal"⟩,
    ⟨chars! "start_time", "Start time".toList, chars! "decimal"⟩,
    ⟨chars! "timestamp", "Timestamp".toList, chars! "custom:posix_time"⟩,
    ⟨chars! "unknown1", "Unknown1".toList, chars! "hexadecimal_2digits"⟩,
    ⟨chars! "unknown2", "Unknown2".toList, chars! "hexadecimal_2digits"⟩,
    ⟨chars! "time_zone_offset", "Time zone offset".toList, chars! "decimal"⟩,
    ⟨chars! "daylight_savings_flag", "Daylight savings flag".toList, chars! "decimal"⟩,
    ⟨chars! "flags", "Flags".toList, chars! "custom:header_flags"⟩]

/-- `tracev3_header_chunk` (dtformats/aul_tracev3.yaml). -/
def members_tracev3_header_chunk : List (Str × Kind) :=
  [(chars! "timebase_numerator", .integer),
    (chars! "timebase_denominator", .integer),
    (chars! "start_time", .integer),
    (chars! "timestamp", .integer),
    (chars! "unknown1", .integer),
    (chars! "unknown2", .integer),
    (chars! "time_zone_offset", .integer),
    (chars! "daylight_savings_flag", .integer),
    (chars! "flags", .integer),
    (chars! "continuous", .nested),
    (chars! "system_information", .nested),
    (chars! "generation", .nested),
    (chars! "time_zone", .nested)]

/-- `tracev3_header_continuous_time_sub_chunk` (dtformats/aul_tracev3.debug.yaml). -/
def debug_tracev3_header_continuous_time_sub_chunk : List DebugInfo.Attribute :=
  [⟨chars! "sub_chunk_tag", "Sub chunk tag".toList, chars! "hexadecimal_4digits"⟩,
    ⟨chars! "sub_chunk_data_size", "Sub chunk data size".toList, chars! "decimal"⟩,
    ⟨chars! "continuous_time", "Continuous time".toList, chars! "decimal"⟩]

/-- `tracev3_header_continuous_time_sub_chunk` (dtformats/aul_tracev3.yaml). -/
def members_tracev3_header_continuous_time_sub_chunk : List (Str × Kind) :=
  [(chars! "sub_chunk_tag", .integer),
    (chars! "sub_chunk_data_size", .integer),
    (chars! "continuous_time", .integer)]

/-- `tracev3_header_generation_sub_chunk` (dtformats/aul_tracev3.debug.yaml). -/
def debug_tracev3_header_generation_sub_chunk : List DebugInfo.Attribute :=
  [⟨chars! "sub_chunk_tag", "Sub chunk tag".toList, chars! "hexadecimal_4digits"⟩,
    ⟨chars! "sub_chunk_data_size", "Sub chunk data size".toList, chars! "decimal"⟩,
    ⟨chars! "boot_identifier", "Boot identifier".toList, chars! "uuid"⟩,
    ⟨chars! "logd_process_identifier", "logd process identifier (PID)".toList, chars! "decimal"⟩,
    ⟨chars! "logd_exit_status", "logd exit status".toList, chars! "decimal"⟩]

/-- `tracev3_header_generation_sub_chunk` (dtformats/aul_tracev3.yaml). -/
def members_tracev3_header_generation_sub_chunk : List (Str × Kind) :=
  [(chars! "sub_chunk_tag", .integer),
    (chars! "sub_chunk_data_size", .integer),
    (chars! "boot_identifier", .uuid),
    (chars! "logd_process_identifier", .integer),
    (chars! "logd_exit_status", .integer)]

/-- `tracev3_header_system_information_sub_chunk` (dtformats/aul_tracev3.debug.yaml). -/
def debug_tracev3_header_system_information_sub_chunk : List DebugInfo.Attribute :=
  [⟨chars! "sub_chunk_tag", "Sub chunk tag".toList, chars! "hexadecimal_4digits"⟩,
    ⟨chars! "sub_chunk_data_size", "Sub chunk data size".toList, chars! "decimal"⟩,
    ⟨chars! "unknown1", "Unknown1".toList, chars! "hexadecimal_4digits"⟩,
    ⟨chars! "unknown2", "Unknown2".toList, chars! "hexadecimal_4digits"⟩,
    ⟨chars! "build_version", "Build version".toList, chars! "string"⟩,
    ⟨chars! "hardware_model", "Hardware model".toList, chars! "string"⟩]

/-- `tracev3_header_system_information_sub_chunk` (dtformats/aul_tracev3.yaml). -/
def members_tracev3_header_system_information_sub_chunk : List (Str × Kind) :=
  [(chars! "sub_chunk_tag", .integer),
    (chars! "sub_chunk_data_size", .integer),
    (chars! "unknown1", .integer),
    (chars! "unknown2", .integer),
    (chars! "build_version", .text),
    (chars! "hardware_model", .text)]

/-- `tracev3_header_time_zone_sub_chunk` (dtformats/aul_tracev3.debug.yaml). -/
def debug_tracev3_header_time_zone_sub_chunk : List DebugInfo.Attribute :=
  [⟨chars! "sub_chunk_tag", "Sub chunk tag".toList, chars! "hexadecimal_4digits"⟩,
    ⟨chars! "sub_chunk_data_size", "Sub chunk data size".toList, chars! "decimal"⟩,
    ⟨chars! "path", "Path".toList, chars! "string"⟩]

/-- `tracev3_header_time_zone_sub_chunk` (dtformats/aul_tracev3.yaml). -/
def members_tracev3_header_time_zone_sub_chunk : List (Str × Kind) :=
  [(chars! "sub_chunk_tag", .integer),
    (chars! "sub_chunk_data_size", .integer),
    (chars! "path", .text)]

/-- `tracev3_lz4_block_header` (dtformats/aul_tracev3.debug.yaml). -/
def debug_tracev3_lz4_block_header : List DebugInfo.Attribute :=
  [⟨chars! "signature", "Signature".toList, chars! "custom:signature"⟩,
    ⟨chars! "uncompressed_data_size", "Uncompressed data size".toList, chars! "decimal"⟩,
    ⟨chars! "compressed_data_size", "compressed data size".toList, chars! "decimal"⟩]

/-- `tracev3_lz4_block_header` (dtformats/aul_tracev3.yaml). -/
def members_tracev3_lz4_block_header : List (Str × Kind) :=
  [(chars! "signature", .bytes),
    (chars! "uncompressed_data_size", .integer),
    (chars! "compressed_data_size", .integer)]

/-- `tracev3_oversize_chunk` (dtformats/aul_tracev3.debug.yaml). -/
def debug_tracev3_oversize_chunk : List DebugInfo.Attribute :=
  [⟨chars! "proc_id_upper", "proc_id (upper 64-bit)".toList, chars! "decimal"⟩,
    ⟨chars! "proc_id_lower", "proc_id (lower 32-bit)".toList, chars! "decimal"⟩,
    ⟨chars! "ttl", "Time to live (TTL)".toList, chars! "decimal"⟩,
    ⟨chars! "unknown1", "Unknown1".toList, chars! "hexadecimal_2digits"⟩,
    ⟨chars! "unknown2", "Unknown2".toList, chars! "hexadecimal_4digits"⟩,
    ⟨chars! "continuous_time", "Continous time".toList, chars! "decimal"⟩,
    ⟨chars! "data_reference", "Data reference".toList, chars! "hexadecimal_8digits"⟩,
    ⟨chars! "data_size", "Data size".toList, chars! "decimal"⟩,
    ⟨chars! "private_data_size", "Private data size".toList, chars! "decimal"⟩,
    ⟨chars! "unknown3", "Unknown3".toList, chars! "hexadecimal_2digits"⟩,
    ⟨chars! "number_of_data_items", "Number of data items".toList, chars! "decimal"⟩]

/-- `tracev3_oversize_chunk` (dtformats/aul_tracev3.yaml). -/
def members_tracev3_oversize_chunk : List (Str × Kind) :=
  [(chars! "proc_id_upper", .integer),
    (chars! "proc_id_lower", .integer),
    (chars! "ttl", .integer),
    (chars! "unknown1", .integer),
    (chars! "unknown2", .integer),
    (chars! "continuous_time", .integer),
    (chars! "data_reference", .integer),
    (chars! "data_size", .integer),
    (chars! "private_data_size", .integer),
    (chars! "unknown3", .integer),
    (chars! "number_of_data_items", .integer),
    (chars! "data_items", .structures)]

/-- `tracev3_simpledump_chunk` (dtformats/aul_tracev3.debug.yaml). -/
def debug_tracev3_simpledump_chunk : List DebugInfo.Attribute :=
  [⟨chars! "proc_id_upper", "proc_id (upper 64-bit)".toList, chars! "decimal"⟩,
    ⟨chars! "proc_id_lower", "proc_id (lower 32-bit)".toList, chars! "decimal"⟩,
    ⟨chars! "ttl", "Time to live (TTL)".toList, chars! "decimal"⟩,
    ⟨chars! "log_type", "Log type".toList, chars! "custom:log_type"⟩,
    ⟨chars! "unknown1", "Unknown1".toList, chars! "hexadecimal_4digits"⟩,
    ⟨chars! "continuous_time", "Continous time".toList, chars! "decimal"⟩,
    ⟨chars! "thread_identifier", "Thread identifier".toList, chars! "decimal"⟩,
    ⟨chars! "load_address", "Load address".toList, chars! "hexadecimal_8digits"⟩,
    ⟨chars! "sender_image_identifier", "Sender image identifier".toList, chars! "uuid"⟩,
    ⟨chars! "dsc_identifier", "DSC identifier".toList, chars! "uuid"⟩,
    ⟨chars! "unknown2", "Unknown2".toList, chars! "hexadecimal_8digits"⟩,
    ⟨chars! "sub_system_string_size", "Sub system string size".toList, chars! "decimal"⟩,
    ⟨chars! "message_string_size", "Message string size".toList, chars! "decimal"⟩,
    ⟨chars! "sub_system_string", "Sub system string".toList, chars! "string"⟩,
    ⟨chars! "message_string", "Message string".toList, chars! "string"⟩]

/-- `tracev3_simpledump_chunk` (dtformats/aul_tracev3.yaml). -/
def members_tracev3_simpledump_chunk : List (Str × Kind) :=
  [(chars! "proc_id_upper", .integer),
    (chars! "proc_id_lower", .integer),
    (chars! "ttl", .integer),
    (chars! "log_type", .integer),
    (chars! "unknown1", .integer),
    (chars! "continuous_time", .integer),
    (chars! "thread_identifier", .integer),
    (chars! "load_address", .integer),
    (chars! "sender_image_identifier", .uuid),
    (chars! "dsc_identifier", .uuid),
    (chars! "unknown2", .integer),
    (chars! "sub_system_string_size", .integer),
    (chars! "message_string_size", .integer),
    (chars! "sub_system_string", .text),
    (chars! "message_string", .text)]

/-- `tracev3_statedump_chunk` (dtformats/aul_tracev3.debug.yaml). -/
def debug_tracev3_statedump_chunk : List DebugInfo.Attribute :=
  [⟨chars! "proc_id_upper", "proc_id (upper 64-bit)".toList, chars! "decimal"⟩,
    ⟨chars! "proc_id_lower", "proc_id (lower 32-bit)".toList, chars! "decimal"⟩,
    ⟨chars! "ttl", "Time to live (TTL)".toList, chars! "decimal"⟩,
    ⟨chars! "unknown1", "Unknown1".toList, chars! "hexadecimal_2digits"⟩,
    ⟨chars! "unknown2", "Unknown2".toList, chars! "hexadecimal_4digits"⟩,
    ⟨chars! "continuous_time", "Continous time".toList, chars! "decimal"⟩,
    ⟨chars! "activity_identifier", "Activity identifier".toList, chars! "hexadecimal_8digits"⟩,
    ⟨chars! "sender_image_identifier", "Sender image identifier".toList, chars! "uuid"⟩,
    ⟨chars! "state_data_type", "State data type".toList, chars! "decimal"⟩,
    ⟨chars! "state_data_size", "State data size".toList, chars! "decimal"⟩,
    ⟨chars! "library", "Library".toList, chars! "binary_data"⟩,
    ⟨chars! "decoder_type", "Decocder type".toList, chars! "binary_data"⟩,
    ⟨chars! "title", "Title".toList, chars! "string"⟩,
    ⟨chars! "state_data", "State data".toList, chars! "binary_data"⟩]

/-- `tracev3_statedump_chunk` (dtformats/aul_tracev3.yaml). -/
def members_tracev3_statedump_chunk : List (Str × Kind) :=
  [(chars! "proc_id_upper", .integer),
    (chars! "proc_id_lower", .integer),
    (chars! "ttl", .integer),
    (chars! "unknown1", .integer),
    (chars! "unknown2", .integer),
    (chars! "continuous_time", .integer),
    (chars! "activity_identifier", .integer),
    (chars! "sender_image_identifier", .uuid),
    (chars! "state_data_type", .integer),
    (chars! "state_data_size", .integer),
    (chars! "library", .bytes),
    (chars! "decoder_type", .bytes),
    (chars! "title", .text),
    (chars! "state_data", .bytes)]

/-- The structures of aul_tracev3 that are shown. -/
def uses_aul_tracev3 : List Use :=
  [⟨chars! "TraceV3File", chars! "tracev3_catalog", chars! "tracev3_catalog",
      callsTraceV3File, debug_tracev3_catalog, members_tracev3_catalog⟩,
    ⟨chars! "TraceV3File", chars! "tracev3_catalog_process_information_entry", chars! "tracev3_catalog_process_information_entry",
      callsTraceV3File, debug_tracev3_catalog_process_information_entry, members_tracev3_catalog_process_information_entry⟩,
    ⟨chars! "TraceV3File", chars! "tracev3_catalog_sub_chunk", chars! "tracev3_catalog_sub_chunk",
      callsTraceV3File, debug_tracev3_catalog_sub_chunk, members_tracev3_catalog_sub_chunk⟩,
    ⟨chars! "TraceV3File", chars! "tracev3_chunk_header", chars! "tracev3_chunk_header",
      callsTraceV3File, debug_tracev3_chunk_header, members_tracev3_chunk_header⟩,
    ⟨chars! "TraceV3File", chars! "tracev3_data_item", chars! "tracev3_data_item_with_inline_data",
      callsTraceV3File, debug_tracev3_data_item, members_tracev3_data_item_with_inline_data⟩,
    ⟨chars! "TraceV3File", chars! "tracev3_data_item", chars! "tracev3_firehose_tracepoint_data_time_with_value_data_range",
      callsTraceV3File, debug_tracev3_data_item, members_tracev3_firehose_tracepoint_data_time_with_value_data_range⟩,
    ⟨chars! "TraceV3File", chars! "tracev3_firehose_header", chars! "tracev3_firehose_header",
      callsTraceV3File, debug_tracev3_firehose_header, members_tracev3_firehose_header⟩,
    ⟨chars! "TraceV3File", chars! "tracev3_firehose_tracepoint", chars! "tracev3_firehose_tracepoint",
      callsTraceV3File, debug_tracev3_firehose_tracepoint, members_tracev3_firehose_tracepoint⟩,
    ⟨chars! "TraceV3File", chars! "tracev3_firehose_tracepoint_activity", chars! "tracev3_firehose_tracepoint_activity",
      callsTraceV3File, debug_tracev3_firehose_tracepoint_activity, members_tracev3_firehose_tracepoint_activity⟩,
    ⟨chars! "TraceV3File", chars! "tracev3_firehose_tracepoint_backtrace_data", chars! "tracev3_firehose_tracepoint_backtrace_data",
      callsTraceV3File, debug_tracev3_firehose_tracepoint_backtrace_data, members_tracev3_firehose_tracepoint_backtrace_data⟩,
    ⟨chars! "TraceV3File", chars! "tracev3_firehose_tracepoint_log", chars! "tracev3_firehose_tracepoint_log",
      callsTraceV3File, debug_tracev3_firehose_tracepoint_log, members_tracev3_firehose_tracepoint_log⟩,
    ⟨chars! "TraceV3File", chars! "tracev3_firehose_tracepoint_loss", chars! "tracev3_firehose_tracepoint_loss",
      callsTraceV3File, debug_tracev3_firehose_tracepoint_loss, members_tracev3_firehose_tracepoint_loss⟩,
    ⟨chars! "TraceV3File", chars! "tracev3_firehose_tracepoint_signpost", chars! "tracev3_firehose_tracepoint_signpost",
      callsTraceV3File, debug_tracev3_firehose_tracepoint_signpost, members_tracev3_firehose_tracepoint_signpost⟩,
    ⟨chars! "TraceV3File", chars! "tracev3_firehose_tracepoint_trace", chars! "tracev3_firehose_tracepoint_trace",
      callsTraceV3File, debug_tracev3_firehose_tracepoint_trace, members_tracev3_firehose_tracepoint_trace⟩,
    ⟨chars! "TraceV3File", chars! "tracev3_header_chunk", chars! "tracev3_header_chunk",
      callsTraceV3File, debug_tracev3_header_chunk, members_tracev3_header_chunk⟩,
    ⟨chars! "TraceV3File", chars! "tracev3_header_continuous_time_sub_chunk", chars! "tracev3_header_continuous_time_sub_chunk",
      callsTraceV3File, debug_tracev3_header_continuous_time_sub_chunk, members_tracev3_header_continuous_time_sub_chunk⟩,
    ⟨chars! "TraceV3File", chars! "tracev3_header_generation_sub_chunk", chars! "tracev3_header_generation_sub_chunk",
      callsTraceV3File, debug_tracev3_header_generation_sub_chunk, members_tracev3_header_generation_sub_chunk⟩,
    ⟨chars! "TraceV3File", chars! "tracev3_header_system_information_sub_chunk", chars! "tracev3_header_system_information_sub_chunk",
      callsTraceV3File, debug_tracev3_header_system_information_sub_chunk, members_tracev3_header_system_information_sub_chunk⟩,
    ⟨chars! "TraceV3File", chars! "tracev3_header_time_zone_sub_chunk", chars! "tracev3_header_time_zone_sub_chunk",
      callsTraceV3File, debug_tracev3_header_time_zone_sub_chunk, members_tracev3_header_time_zone_sub_chunk⟩,
    ⟨chars! "TraceV3File", chars! "tracev3_lz4_block_header", chars! "tracev3_lz4_block_header",
      callsTraceV3File, debug_tracev3_lz4_block_header, members_tracev3_lz4_block_header⟩,
    ⟨chars! "TraceV3File", chars! "tracev3_oversize_chunk", chars! "tracev3_oversize_chunk",
      callsTraceV3File, debug_tracev3_oversize_chunk, members_tracev3_oversize_chunk⟩,
    ⟨chars! "TraceV3File", chars! "tracev3_simpledump_chunk", chars! "tracev3_simpledump_chunk",
      callsTraceV3File, debug_tracev3_simpledump_chunk, members_tracev3_simpledump_chunk⟩,
    ⟨chars! "TraceV3File", chars! "tracev3_statedump_chunk", chars! "tracev3_statedump_chunk",
      callsTraceV3File, debug_tracev3_statedump_chunk, members_tracev3_statedump_chunk⟩]

/-! ### aul_uuidtext.yaml and aul_uuidtext.debug.yaml -/

/-- The custom format callbacks of `UUIDTextFile` (dtformats/unified_logging.py). -/
def callsUUIDTextFile : List (Str × Str) :=
  [(chars! "array_of_entry_descriptors", chars! "_FormatArrayOfEntryDescriptors"),
    (chars! "signature", chars! "_FormatStreamAsString")]

/-- `uuidtext_file_footer` (dtformats/aul_uuidtext.debug.yaml). -/
def debug_uuidtext_file_footer : List DebugInfo.Attribute :=
  [⟨chars! "image_path", "Image path".toList, chars! "string"⟩]

/-- `uuidtext_file_footer` (dtformats/aul_uuidtext.yaml). -/
def members_uuidtext_file_footer : List (Str × Kind) :=
  [(chars! "image_path", .text)]

/-- `uuidtext_file_header` (dtformats/aul_uuidtext.debug.yaml). -/
def debug_uuidtext_file_header : List DebugInfo.Attribute :=
  [⟨chars! "signature", "Signature".toList, chars! "custom:signature"⟩,
    ⟨chars! "major_format_version", "Major format version".toList, chars! "decimal"⟩,
    ⟨chars! "minor_format_version", "Minor format version".toList, chars! "decimal"⟩,
    ⟨chars! "number_of_entries", "Number of entries".toList, chars! "decimal"⟩,
    ⟨chars! "entry_descriptors", "Entry descriptors".toList, chars! "custom:array_of_entry_descriptors"⟩]

/-- `uuidtext_file_header` (dtformats/aul_uuidtext.yaml). -/
def members_uuidtext_file_header : List (Str × Kind) :=
  [(chars! "signature", .bytes),
    (chars! "major_format_version", .integer),
    (chars! "minor_format_version", .integer),
    (chars! "number_of_entries", .integer),
    (chars! "entry_descriptors", .structures)]

/-- The structures of aul_uuidtext that are shown. -/
def uses_aul_uuidtext : List Use :=
  [⟨chars! "UUIDTextFile", chars! "uuidtext_file_footer", chars! "uuidtext_file_footer",
      callsUUIDTextFile, debug_uuidtext_file_footer, members_uuidtext_file_footer⟩,
    ⟨chars! "UUIDTextFile", chars! "uuidtext_file_header", chars! "uuidtext_file_header",
      callsUUIDTextFile, debug_uuidtext_file_header, members_uuidtext_file_header⟩]

/-! ### usn_journal.yaml and usn_journal.debug.yaml -/

/-- The custom format callbacks of `USNRecords` (dtformats/usn_journal.py). -/
def callsUSNRecords : List (Str × Str) :=
  [(chars! "filetime", chars! "_FormatIntegerAsFiletime")]

/-- `usn_record_v2` (dtformats/usn_journal.debug.yaml). -/
def debug_usn_record_v2 : List DebugInfo.Attribute :=
  [⟨chars! "size", "Size".toList, chars! "decimal"⟩,
    ⟨chars! "major_format_version", "Major format version".toList, chars! "decimal"⟩,
    ⟨chars! "minor_format_version", "Minor format version".toList, chars! "decimal"⟩,
    ⟨chars! "file_reference", "File reference".toList, chars! "hexadecimal_8digits"⟩,
    ⟨chars! "parent_file_reference", "Parent file reference".toList, chars! "hexadecimal_8digits"⟩,
    ⟨chars! "timestamp", "Timestamp".toList, chars! "custom:filetime"⟩,
    ⟨chars! "update_reason_flags", "Update reason flags".toList, chars! "hexadecimal_8digits"⟩,
    ⟨chars! "update_source_flags", "Update source flags".toList, chars! "hexadecimal_8digits"⟩,
    ⟨chars! "security_descriptor_entry", "Security descriptor entry".toList, chars! "decimal"⟩,
    ⟨chars! "file_attribute_flags", "File attribute flags".toList, chars! "hexadecimal_8digits"⟩,
    ⟨chars! "name_size", "Name size".toList, chars! "decimal"⟩,
    ⟨chars! "name_offset", "Name offset".toList, chars! "decimal"⟩,
    ⟨chars! "name", "Name".toList, chars! "string"⟩]

/-- `usn_record_v2` (dtformats/usn_journal.yaml). -/
def members_usn_record_v2 : List (Str × Kind) :=
  [(chars! "size", .integer),
    (chars! "major_format_version", .integer),
    (chars! "minor_format_version", .integer),
    (chars! "file_reference", .integer),
    (chars! "parent_file_reference", .integer),
    (chars! "sequence_number", .integer),
    (chars! "timestamp", .integer),
    (chars! "update_reason_flags", .integer),
    (chars! "update_source_flags", .integer),
    (chars! "security_descriptor_entry", .integer),
    (chars! "file_attribute_flags", .integer),
    (chars! "name_size", .integer),
    (chars! "name_offset", .integer),
    (chars! "name", .text),
    (chars! "padding", .bytes)]

/-- The structures of usn_journal that are shown. -/
def uses_usn_journal : List Use :=
  [⟨chars! "USNRecords", chars! "usn_record_v2", chars! "usn_record_v2",
      callsUSNRecords, debug_usn_record_v2, members_usn_record_v2⟩]

/-! ### wmi_repository.yaml and wmi_repository.debug.yaml -/

/-- The custom format callbacks of `IndexBinaryTreeFile` (dtformats/wmi_repository.py). -/
def callsIndexBinaryTreeFile : List (Str × Str) :=
  [(chars! "page_type", chars! "_FormatIntegerAsPageType")]

/-- `cim_page_header` (dtformats/wmi_repository.debug.yaml). -/
def debug_cim_page_header : List DebugInfo.Attribute :=
  [⟨chars! "page_type", "Page type".toList, chars! "custom:page_type"⟩,
    ⟨chars! "mapped_page_number", "Mapped page number".toList, chars! "decimal"⟩,
    ⟨chars! "unknown1", "Unknown1".toList, chars! "hexadecimal_8digits"⟩,
    ⟨chars! "root_page_number", "Root page number".toList, chars! "decimal"⟩]

/-- `cim_page_header` (dtformats/wmi_repository.yaml). -/
def members_cim_page_header : List (Str × Kind) :=
  [(chars! "page_type", .integer),
    (chars! "mapped_page_number", .integer),
    (chars! "unknown1", .integer),
    (chars! "root_page_number", .integer)]

/-- The custom format callbacks of `MappingFile` (dtformats/wmi_repository.py). -/
def callsMappingFile : List (Str × Str) :=
  [(chars! "page_number", chars! "_FormatIntegerAsPageNumber")]

/-- `cim_map_footer` (dtformats/wmi_repository.debug.yaml). -/
def debug_cim_map_footer : List DebugInfo.Attribute :=
  [⟨chars! "signature", "Signature".toList, chars! "hexadecimal_8digits"⟩]

/-- `cim_map_footer` (dtformats/wmi_repository.yaml). -/
def members_cim_map_footer : List (Str × Kind) :=
  [(chars! "signature", .integer)]

/-- `cim_map_header` (dtformats/wmi_repository.debug.yaml). -/
def debug_cim_map_header : List DebugInfo.Attribute :=
  [⟨chars! "signature", "Signature".toList, chars! "hexadecimal_8digits"⟩,
    ⟨chars! "sequence_number", "Sequence number".toList, chars! "decimal"⟩,
    ⟨chars! "unknown1", "Unknown1".toList, chars! "hexadecimal_8digits"⟩,
    ⟨chars! "unknown2", "Unknown2".toList, chars! "hexadecimal_8digits"⟩,
    ⟨chars! "number_of_pages", "Number of pages".toList, chars! "decimal"⟩]

/-- `cim_map_header_v1` (dtformats/wmi_repository.yaml). -/
def members_cim_map_header_v1 : List (Str × Kind) :=
  [(chars! "signature", .integer),
    (chars! "sequence_number", .integer),
    (chars! "number_of_pages", .integer)]

/-- `cim_map_header_v2` (dtformats/wmi_repository.yaml). -/
def members_cim_map_header_v2 : List (Str × Kind) :=
  [(chars! "signature", .integer),
    (chars! "sequence_number", .integer),
    (chars! "unknown1", .integer),
    (chars! "unknown2", .integer),
    (chars! "number_of_pages", .integer)]

/-- `cim_map_table_entry` (dtformats/wmi_repository.debug.yaml). -/
def debug_cim_map_table_entry : List DebugInfo.Attribute :=
  [⟨chars! "page_number", "    Page number".toList, chars! "custom:page_number"⟩,
    ⟨chars! "unknown1", "    Unknown1".toList, chars! "hexadecimal_8digits"⟩,
    ⟨chars! "unknown2", "    Unknown2".toList, chars! "hexadecimal_8digits"⟩,
    ⟨chars! "unknown3", "    Unknown3".toList, chars! "hexadecimal_8digits"⟩,
    ⟨chars! "unknown4", "    Unknown4".toList, chars! "hexadecimal_8digits"⟩,
    ⟨chars! "unknown5", "    Unknown5".toList, chars! "hexadecimal_8digits"⟩]

/-- `cim_map_mapping_table_entry_v1` (dtformats/wmi_repository.yaml). -/
def members_cim_map_mapping_table_entry_v1 : List (Str × Kind) :=
  [(chars! "page_number", .integer)]

/-- `cim_map_mapping_table_entry_v2` (dtformats/wmi_repository.yaml). -/
def members_cim_map_mapping_table_entry_v2 : List (Str × Kind) :=
  [(chars! "page_number", .integer),
    (chars! "unknown1", .integer),
    (chars! "unknown2", .integer),
    (chars! "unknown3", .integer),
    (chars! "unknown4", .integer),
    (chars! "unknown5", .integer)]

/-- The custom format callbacks of `ObjectsDataFile` (dtformats/wmi_repository.py). -/
def callsObjectsDataFile : List (Str × Str) :=
  [(chars! "offset", chars! "_FormatIntegerAsOffset")]

/-- `cim_object_descriptor` (dtformats/wmi_repository.debug.yaml). -/
def debug_cim_object_descriptor : List DebugInfo.Attribute :=
  [⟨chars! "identifier", "Identifier".toList, chars! "hexadecimal_8digits"⟩,
    ⟨chars! "data_offset", "Data offset (relative)".toList, chars! "custom:offset"⟩,
    ⟨chars! "data_file_offset", "Data offset (file)".toList, chars! "custom:offset"⟩,
    ⟨chars! "data_size", "Data size".toList, chars! "decimal"⟩,
    ⟨chars! "data_checksum", "Data checksum".toList, chars! "hexadecimal_8digits"⟩]

/-- `cim_object_descriptor` (dtformats/wmi_repository.yaml) and the members that are set by the code. -/
def members_cim_object_descriptor : List (Str × Kind) :=
  [(chars! "identifier", .integer),
    (chars! "data_offset", .integer),
    (chars! "data_size", .integer),
    (chars! "data_checksum", .integer),
    (chars! "data_file_offset", .integer)]

/-- The custom format callbacks of `RepositoryFile` (dtformats/wmi_repository.py). -/
def callsRepositoryFile : List (Str × Str) :=
  [(chars! "offset", chars! "_FormatIntegerAsOffset")]

/-- `cim_rep_child_objects_branch_node` (dtformats/wmi_repository.debug.yaml). -/
def debug_cim_rep_child_objects_branch_node : List DebugInfo.Attribute :=
  [⟨chars! "number_of_leaf_values", "Number of leaf values".toList, chars! "decimal"⟩,
    ⟨chars! "maximum_number_of_leaf_values", "Maximum number of leaf values".toList, chars! "decimal"⟩,
    ⟨chars! "unknown3", "Unknown3".toList, chars! "hexadecimal_8digits"⟩,
    ⟨chars! "leaf_node_offset", "Leaf node offset".toList, chars! "custom:offset"⟩,
    ⟨chars! "footer", "Footer".toList, chars! "binary_data"⟩]

/-- `cim_rep_child_objects_branch_node` (dtformats/wmi_repository.yaml). -/
def members_cim_rep_child_objects_branch_node : List (Str × Kind) :=
  [(chars! "number_of_leaf_values", .integer),
    (chars! "maximum_number_of_leaf_values", .integer),
    (chars! "unknown3", .integer),
    (chars! "leaf_node_offset", .integer),
    (chars! "footer", .bytes)]

/-- `cim_rep_child_objects_leaf_node` (dtformats/wmi_repository.debug.yaml). -/
def debug_cim_rep_child_objects_leaf_node : List DebugInfo.Attribute :=
  [⟨chars! "value_node_offset1", "Value node offset1".toList, chars! "custom:offset"⟩,
    ⟨chars! "value_node_offset2", "Value node offset2".toList, chars! "custom:offset"⟩,
    ⟨chars! "value_node_offset3", "Value node offset3".toList, chars! "custom:offset"⟩,
    ⟨chars! "value_node_offset4", "Value node offset4".toList, chars! "custom:offset"⟩,
    ⟨chars! "value_node_offset5", "Value node offset5".toList, chars! "custom:offset"⟩,
    ⟨chars! "value_node_offset6", "Value node offset6".toList, chars! "custom:offset"⟩,
    ⟨chars! "value_node_offset7", "Value node offset7".toList, chars! "custom:offset"⟩,
    ⟨chars! "value_node_offset8", "Value node offset8".toList, chars! "custom:offset"⟩,
    ⟨chars! "value_node_offset9", "Value node offset9".toList, chars! "custom:offset"⟩,
    ⟨chars! "value_node_offset10", "Value node offset10".toList, chars! "custom:offset"⟩,
    ⟨chars! "footer", "Footer".toList, chars! "binary_data"⟩]

/-- `cim_rep_child_objects_leaf_node` (dtformats/wmi_repository.yaml). -/
def members_cim_rep_child_objects_leaf_node : List (Str × Kind) :=
  [(chars! "value_node_offset1", .integer),
    (chars! "value_node_offset2", .integer),
    (chars! "value_node_offset3", .integer),
    (chars! "value_node_offset4", .integer),
    (chars! "value_node_offset5", .integer),
    (chars! "value_node_offset6", .integer),
    (chars! "value_node_offset7", .integer),
    (chars! "value_node_offset8", .integer),
    (chars! "value_node_offset9", .integer),
    (chars! "value_node_offset10", .integer),
    (chars! "footer", .bytes)]

/-- `cim_rep_child_objects_list_element_node` (dtformats/wmi_repository.debug.yaml). -/
def debug_cim_rep_child_objects_list_element_node : List DebugInfo.Attribute :=
  [⟨chars! "unknown1", "Unknown1".toList, chars! "decimal"⟩,
    ⟨chars! "name_node_offset", "Name node offset".toList, chars! "custom:offset"⟩,
    ⟨chars! "value_node_offset", "Value node offset".toList, chars! "custom:offset"⟩,
    ⟨chars! "list_element_node_offset1", "Unknown node 3 offset 1".toList, chars! "custom:offset"⟩,
    ⟨chars! "list_element_node_offset2", "Unknown node 3 offset 2".toList, chars! "custom:offset"⟩,
    ⟨chars! "previous_list_element_node_offset", "Previous list element node offset".toList, chars! "custom:offset"⟩,
    ⟨chars! "next_list_element_node_offset", "Next list element node offset".toList, chars! "custom:offset"⟩,
    ⟨chars! "footer", "Footer".toList, chars! "binary_data"⟩]

/-- `cim_rep_child_objects_list_element_node` (dtformats/wmi_repository.yaml). -/
def members_cim_rep_child_objects_list_element_node : List (Str × Kind) :=
  [(chars! "unknown1", .integer),
    (chars! "name_node_offset", .integer),
    (chars! "value_node_offset", .integer),
    (chars! "list_element_node_offset1", .integer),
    (chars! "list_element_node_offset2", .integer),
    (chars! "previous_list_element_node_offset", .integer),
    (chars! "next_list_element_node_offset", .integer),
    (chars! "footer", .bytes)]

/-- `cim_rep_child_objects_list_node` (dtformats/wmi_repository.debug.yaml). -/
def debug_cim_rep_child_objects_list_node : List DebugInfo.Attribute :=
  [⟨chars! "list_element_node_offset1", "List element node offset 1".toList, chars! "custom:offset"⟩,
    ⟨chars! "first_list_element_node_offset", "First list element node offset".toList, chars! "custom:offset"⟩,
    ⟨chars! "last_list_element_node_offset", "Last list element node offset".toList, chars! "custom:offset"⟩,
    ⟨chars! "unknown4", "Unknown4".toList, chars! "decimal"⟩,
    ⟨chars! "number_of_elements", "Number of elements".toList, chars! "decimal"⟩,
    ⟨chars! "footer", "Footer".toList, chars! "binary_data"⟩]

/-- `cim_rep_child_objects_list_node` (dtformats/wmi_repository.yaml). -/
def members_cim_rep_child_objects_list_node : List (Str × Kind) :=
  [(chars! "list_element_node_offset1", .integer),
    (chars! "first_list_element_node_offset", .integer),
    (chars! "last_list_element_node_offset", .integer),
    (chars! "unknown4", .integer),
    (chars! "number_of_elements", .integer),
    (chars! "footer", .bytes)]

/-- `cim_rep_child_objects_root_node` (dtformats/wmi_repository.debug.yaml). -/
def debug_cim_rep_child_objects_root_node : List DebugInfo.Attribute :=
  [⟨chars! "depth", "Depth".toList, chars! "decimal"⟩,
    ⟨chars! "number_of_leaf_values", "Number of leaf values".toList, chars! "decimal"⟩,
    ⟨chars! "branch_node_offset", "Branch node offset".toList, chars! "custom:offset"⟩,
    ⟨chars! "footer", "Footer".toList, chars! "binary_data"⟩]

/-- `cim_rep_child_objects_root_node` (dtformats/wmi_repository.yaml). -/
def members_cim_rep_child_objects_root_node : List (Str × Kind) :=
  [(chars! "depth", .integer),
    (chars! "number_of_leaf_values", .integer),
    (chars! "branch_node_offset", .integer),
    (chars! "footer", .bytes)]

/-- `cim_rep_class_definition_branch_node` (dtformats/wmi_repository.debug.yaml). -/
def debug_cim_rep_class_definition_branch_node : List DebugInfo.Attribute :=
  [⟨chars! "instance_root_node_offset", "Instance root node offset".toList, chars! "custom:offset"⟩,
    ⟨chars! "class_definition_root_node_offset", "Class definition root node offset".toList, chars! "custom:offset"⟩,
    ⟨chars! "unknown2", "Unknown2".toList, chars! "hexadecimal_8digits"⟩,
    ⟨chars! "class_definition_leaf_node_offset", "Class definition leaf node offset".toList, chars! "custom:offset"⟩,
    ⟨chars! "unknown3", "Unknown3".toList, chars! "custom:offset"⟩,
    ⟨chars! "footer", "Footer".toList, chars! "binary_data"⟩]

/-- `cim_rep_class_definition_branch_node` (dtformats/wmi_repository.yaml). -/
def members_cim_rep_class_definition_branch_node : List (Str × Kind) :=
  [(chars! "instance_root_node_offset", .integer),
    (chars! "class_definition_root_node_offset", .integer),
    (chars! "unknown2", .integer),
    (chars! "class_definition_leaf_node_offset", .integer),
    (chars! "unknown3", .integer),
    (chars! "footer", .bytes)]

/-- `cim_rep_class_definition_leaf_node` (dtformats/wmi_repository.debug.yaml). -/
def debug_cim_rep_class_definition_leaf_node : List DebugInfo.Attribute :=
  [⟨chars! "class_definition_block_size", "Class definition block size".toList, chars! "decimal"⟩,
    ⟨chars! "class_definition_block_data", "Class definition block data".toList, chars! "binary_data"⟩,
    ⟨chars! "unknown_block_size", "Unknown block size".toList, chars! "decimal"⟩,
    ⟨chars! "unknown_block_data", "Unknown block data".toList, chars! "binary_data"⟩,
    ⟨chars! "alignment_padding", "Alignment padding".toList, chars! "binary_data"⟩,
    ⟨chars! "footer", "Footer".toList, chars! "binary_data"⟩]

/-- `cim_rep_class_definition_leaf_node` (dtformats/wmi_repository.yaml). -/
def members_cim_rep_class_definition_leaf_node : List (Str × Kind) :=
  [(chars! "class_definition_block_size", .integer),
    (chars! "class_definition_block_data", .bytes),
    (chars! "unknown_block_size", .integer),
    (chars! "unknown_block_data", .bytes),
    (chars! "alignment_padding", .bytes),
    (chars! "footer", .bytes)]

/-- `cim_rep_class_definition_root_node` (dtformats/wmi_repository.debug.yaml). -/
def debug_cim_rep_class_definition_root_node : List DebugInfo.Attribute :=
  [⟨chars! "instance_root_node_offset", "Instance root node offset".toList, chars! "custom:offset"⟩,
    ⟨chars! "class_definition_branch_node_offset", "Class definition branch node offset".toList, chars! "custom:offset"⟩,
    ⟨chars! "parent_class_root_node_offset", "Parent class root node offset".toList, chars! "custom:offset"⟩,
    ⟨chars! "sub_node_type", "Sub node type".toList, chars! "hexadecimal_2digits"⟩,
    ⟨chars! "child_objects_list_node_offset", "Child objects list node offset".toList, chars! "custom:offset"⟩,
    ⟨chars! "sub_node_offset", "Sub node offset".toList, chars! "custom:offset"⟩,
    ⟨chars! "unknown4", "Unknown4".toList, chars! "hexadecimal_8digits"⟩,
    ⟨chars! "child_objects_root_node_offset", "Child objects root node offset".toList, chars! "custom:offset"⟩,
    ⟨chars! "footer", "Footer".toList, chars! "binary_data"⟩]

/-- `cim_rep_class_definition_root_node` (dtformats/wmi_repository.yaml). -/
def members_cim_rep_class_definition_root_node : List (Str × Kind) :=
  [(chars! "instance_root_node_offset", .integer),
    (chars! "class_definition_branch_node_offset", .integer),
    (chars! "parent_class_root_node_offset", .integer),
    (chars! "sub_node_type", .integer),
    (chars! "child_objects_list_node_offset", .integer),
    (chars! "sub_node_offset", .integer),
    (chars! "unknown4", .integer),
    (chars! "child_objects_root_node_offset", .integer),
    (chars! "footer", .bytes)]

/-- `cim_rep_file_header` (dtformats/wmi_repository.debug.yaml). -/
def debug_cim_rep_file_header : List DebugInfo.Attribute :=
  [⟨chars! "system_class_cell_number", "System class cell number".toList, chars! "decimal"⟩,
    ⟨chars! "root_namespace_cell_number", "Root namespace cell number".toList, chars! "decimal"⟩,
    ⟨chars! "data_size", "Data size".toList, chars! "decimal"⟩,
    ⟨chars! "unknown1", "Unknown1".toList, chars! "hexadecimal_8digits"⟩,
    ⟨chars! "unknown2", "Unknown2".toList, chars! "hexadecimal_8digits"⟩,
    ⟨chars! "unused_space_offset", "Unused space offset".toList, chars! "custom:offset"⟩,
    ⟨chars! "unknown3", "Unknown3".toList, chars! "hexadecimal_8digits"⟩,
    ⟨chars! "unknown4", "Unknown4".toList, chars! "hexadecimal_8digits"⟩,
    ⟨chars! "unknown5", "Unknown5".toList, chars! "hexadecimal_8digits"⟩,
    ⟨chars! "node_bin_size", "Node bin size".toList, chars! "decimal"⟩]

/-- `cim_rep_file_header` (dtformats/wmi_repository.yaml). -/
def members_cim_rep_file_header : List (Str × Kind) :=
  [(chars! "system_class_cell_number", .integer),
    (chars! "root_namespace_cell_number", .integer),
    (chars! "data_size", .integer),
    (chars! "unknown1", .integer),
    (chars! "unknown2", .integer),
    (chars! "unused_space_offset", .integer),
    (chars! "unknown3", .integer),
    (chars! "unknown4", .integer),
    (chars! "unknown5", .integer),
    (chars! "node_bin_size", .integer)]

/-- `cim_rep_instance_branch_node` (dtformats/wmi_repository.debug.yaml). -/
def debug_cim_rep_instance_branch_node : List DebugInfo.Attribute :=
  [⟨chars! "instance_root_node_offset", "Instance root node offset".toList, chars! "custom:offset"⟩,
    ⟨chars! "class_definition_root_node_offset", "Class definition root node offset".toList, chars! "custom:offset"⟩,
    ⟨chars! "unknown1", "Unknown1".toList, chars! "binary_data"⟩,
    ⟨chars! "instance_leaf_node_offset", "Instance leaf node offset".toList, chars! "custom:offset"⟩,
    ⟨chars! "unknown3", "Unknown3".toList, chars! "custom:offset"⟩,
    ⟨chars! "footer", "Footer".toList, chars! "binary_data"⟩]

/-- `cim_rep_instance_branch_node` (dtformats/wmi_repository.yaml). -/
def members_cim_rep_instance_branch_node : List (Str × Kind) :=
  [(chars! "instance_root_node_offset", .integer),
    (chars! "class_definition_root_node_offset", .integer),
    (chars! "unknown1", .integer),
    (chars! "instance_leaf_node_offset", .integer),
    (chars! "unknown3", .integer),
    (chars! "footer", .bytes)]

/-- `cim_rep_instance_leaf_node` (dtformats/wmi_repository.debug.yaml). -/
def debug_cim_rep_instance_leaf_node : List DebugInfo.Attribute :=
  [⟨chars! "instance_block_size", "Instance block size".toList, chars! "decimal"⟩,
    ⟨chars! "instance_block_data", "Instance block data".toList, chars! "binary_data"⟩,
    ⟨chars! "footer", "Footer".toList, chars! "binary_data"⟩]

/-- `cim_rep_instance_leaf_node` (dtformats/wmi_repository.yaml). -/
def members_cim_rep_instance_leaf_node : List (Str × Kind) :=
  [(chars! "instance_block_size", .integer),
    (chars! "instance_block_data", .bytes),
    (chars! "footer", .bytes)]

/-- `cim_rep_instance_leaf_value_node` (dtformats/wmi_repository.debug.yaml). -/
def debug_cim_rep_instance_leaf_value_node : List DebugInfo.Attribute :=
  [⟨chars! "name_node_offset", "Name node offset".toList, chars! "custom:offset"⟩,
    ⟨chars! "instance_root_node_offset", "Instance root node offset".toList, chars! "custom:offset"⟩,
    ⟨chars! "footer", "Footer".toList, chars! "binary_data"⟩]

/-- `cim_rep_instance_leaf_value_node` (dtformats/wmi_repository.yaml). -/
def members_cim_rep_instance_leaf_value_node : List (Str × Kind) :=
  [(chars! "name_node_offset", .integer),
    (chars! "instance_root_node_offset", .integer),
    (chars! "footer", .bytes)]

/-- `cim_rep_instance_root_node` (dtformats/wmi_repository.debug.yaml). -/
def debug_cim_rep_instance_root_node : List DebugInfo.Attribute :=
  [⟨chars! "child_objects_root_node_offset", "Child objects root node offset".toList, chars! "custom:offset"⟩,
    ⟨chars! "name_node_offset", "Name node offset".toList, chars! "custom:offset"⟩,
    ⟨chars! "instance_branch_node_offset", "Instance branch node offset".toList, chars! "custom:offset"⟩,
    ⟨chars! "unknown1", "Unknown1".toList, chars! "decimal"⟩,
    ⟨chars! "child_objects_list_node_offset", "Child objects list node offset".toList, chars! "custom:offset"⟩,
    ⟨chars! "unknown2", "Unknown2".toList, chars! "custom:offset"⟩,
    ⟨chars! "unknown_node5_offset", "Unknown node 5 offset".toList, chars! "custom:offset"⟩,
    ⟨chars! "footer", "Footer".toList, chars! "binary_data"⟩]

/-- `cim_rep_instance_root_node` (dtformats/wmi_repository.yaml). -/
def members_cim_rep_instance_root_node : List (Str × Kind) :=
  [(chars! "child_objects_root_node_offset", .integer),
    (chars! "name_node_offset", .integer),
    (chars! "instance_branch_node_offset", .integer),
    (chars! "unknown1", .integer),
    (chars! "child_objects_list_node_offset", .integer),
    (chars! "unknown2", .integer),
    (chars! "unknown_node5_offset", .integer),
    (chars! "footer", .bytes)]

/-- `cim_rep_name_node` (dtformats/wmi_repository.debug.yaml). -/
def debug_cim_rep_name_node : List DebugInfo.Attribute :=
  [⟨chars! "name", "Name".toList, chars! "string"⟩,
    ⟨chars! "alignment_padding", "Alignment padding".toList, chars! "binary_data"⟩,
    ⟨chars! "footer", "Footer".toList, chars! "binary_data"⟩]

/-- `cim_rep_name_node` (dtformats/wmi_repository.yaml). -/
def members_cim_rep_name_node : List (Str × Kind) :=
  [(chars! "name", .text),
    (chars! "alignment_padding", .bytes),
    (chars! "footer", .bytes)]

/-- `cim_rep_node_bin_header` (dtformats/wmi_repository.debug.yaml). -/
def debug_cim_rep_node_bin_header : List DebugInfo.Attribute :=
  [⟨chars! "node_bin_size", "Node bin size".toList, chars! "decimal"⟩]

/-- `cim_rep_node_bin_header` (dtformats/wmi_repository.yaml). -/
def members_cim_rep_node_bin_header : List (Str × Kind) :=
  [(chars! "node_bin_size", .integer)]

/-- `cim_rep_node_cell` (dtformats/wmi_repository.debug.yaml). -/
def debug_cim_rep_node_cell : List DebugInfo.Attribute :=
  [⟨chars! "size", "Size".toList, chars! "decimal"⟩,
    ⟨chars! "data", "Data".toList, chars! "binary_data"⟩]

/-- `cim_rep_node_cell` (dtformats/wmi_repository.yaml). -/
def members_cim_rep_node_cell : List (Str × Kind) :=
  [(chars! "size", .integer),
    (chars! "data", .bytes)]

/-- `cim_rep_unknown_node5` (dtformats/wmi_repository.debug.yaml). -/
def debug_cim_rep_unknown_node5 : List DebugInfo.Attribute :=
  [⟨chars! "unknown_block_size", "Unknown block size".toList, chars! "decimal"⟩,
    ⟨chars! "unknown_block_data", "Unknown block data".toList, chars! "binary_data"⟩,
    ⟨chars! "footer", "Footer".toList, chars! "binary_data"⟩]

/-- `cim_rep_unknown_node5` (dtformats/wmi_repository.yaml). -/
def members_cim_rep_unknown_node5 : List (Str × Kind) :=
  [(chars! "unknown_block_size", .integer),
    (chars! "unknown_block_data", .bytes),
    (chars! "footer", .bytes)]

/-- The structures of wmi_repository that are shown. -/
def uses_wmi_repository : List Use :=
  [⟨chars! "IndexBinaryTreeFile", chars! "cim_page_header", chars! "cim_page_header",
      callsIndexBinaryTreeFile, debug_cim_page_header, members_cim_page_header⟩,
    ⟨chars! "MappingFile", chars! "cim_map_footer", chars! "cim_map_footer",
      callsMappingFile, debug_cim_map_footer, members_cim_map_footer⟩,
    ⟨chars! "MappingFile", chars! "cim_map_header", chars! "cim_map_header_v1",
      callsMappingFile, debug_cim_map_header, members_cim_map_header_v1⟩,
    ⟨chars! "MappingFile", chars! "cim_map_header", chars! "cim_map_header_v2",
      callsMappingFile, debug_cim_map_header, members_cim_map_header_v2⟩,
    ⟨chars! "MappingFile", chars! "cim_map_table_entry", chars! "cim_map_mapping_table_entry_v1",
      callsMappingFile, debug_cim_map_table_entry, members_cim_map_mapping_table_entry_v1⟩,
    ⟨chars! "MappingFile", chars! "cim_map_table_entry", chars! "cim_map_mapping_table_entry_v2",
      callsMappingFile, debug_cim_map_table_entry, members_cim_map_mapping_table_entry_v2⟩,
    ⟨chars! "ObjectsDataFile", chars! "cim_object_descriptor", chars! "cim_object_descriptor",
      callsObjectsDataFile, debug_cim_object_descriptor, members_cim_object_descriptor⟩,
    ⟨chars! "RepositoryFile", chars! "cim_rep_child_objects_branch_node", chars! "cim_rep_child_objects_branch_node",
      callsRepositoryFile, debug_cim_rep_child_objects_branch_node, members_cim_rep_child_objects_branch_node⟩,
    ⟨chars! "RepositoryFile", chars! "cim_rep_child_objects_leaf_node", chars! "cim_rep_child_objects_leaf_node",
      callsRepositoryFile, debug_cim_rep_child_objects_leaf_node, members_cim_rep_child_objects_leaf_node⟩,
    ⟨chars! "RepositoryFile", chars! "cim_rep_child_objects_list_element_node", chars! "cim_rep_child_objects_list_element_node",
      callsRepositoryFile, debug_cim_rep_child_objects_list_element_node, members_cim_rep_child_objects_list_element_node⟩,
    ⟨chars! "RepositoryFile", chars! "cim_rep_child_objects_list_node", chars! "cim_rep_child_objects_list_node",
      callsRepositoryFile, debug_cim_rep_child_objects_list_node, members_cim_rep_child_objects_list_node⟩,
    ⟨chars! "RepositoryFile", chars! "cim_rep_child_objects_root_node", chars! "cim_rep_child_objects_root_node",
      callsRepositoryFile, debug_cim_rep_child_objects_root_node, members_cim_rep_child_objects_root_node⟩,
    ⟨chars! "RepositoryFile", chars! "cim_rep_class_definition_branch_node", chars! "cim_rep_class_definition_branch_node",
      callsRepositoryFile, debug_cim_rep_class_definition_branch_node, members_cim_rep_class_definition_branch_node⟩,
    ⟨chars! "RepositoryFile", chars! "cim_rep_class_definition_leaf_node", chars! "cim_rep_class_definition_leaf_node",
      callsRepositoryFile, debug_cim_rep_class_definition_leaf_node, members_cim_rep_class_definition_leaf_node⟩,
    ⟨chars! "RepositoryFile", chars! "cim_rep_class_definition_root_node", chars! "cim_rep_class_definition_root_node",
      callsRepositoryFile, debug_cim_rep_class_definition_root_node, members_cim_rep_class_definition_root_node⟩,
    ⟨chars! "RepositoryFile", chars! "cim_rep_file_header", chars! "cim_rep_file_header",
      callsRepositoryFile, debug_cim_rep_file_header, members_cim_rep_file_header⟩,
    ⟨chars! "RepositoryFile", chars! "cim_rep_instance_branch_node", chars! "cim_rep_instance_branch_node",
      callsRepositoryFile, debug_cim_rep_instance_branch_node, members_cim_rep_instance_branch_node⟩,
    ⟨chars! "RepositoryFile", chars! "cim_rep_instance_leaf_node", chars! "cim_rep_instance_leaf_node",
      callsRepositoryFile, debug_cim_rep_instance_leaf_node, members_cim_rep_instance_leaf_node⟩,
    ⟨chars! "RepositoryFile", chars! "cim_rep_instance_leaf_value_node", chars! "cim_rep_instance_leaf_value_node",
      callsRepositoryFile, debug_cim_rep_instance_leaf_value_node, members_cim_rep_instance_leaf_value_node⟩,
    ⟨chars! "RepositoryFile", chars! "cim_rep_instance_root_node", chars! "cim_rep_instance_root_node",
      callsRepositoryFile, debug_cim_rep_instance_root_node, members_cim_rep_instance_root_node⟩,
    ⟨chars! "RepositoryFile", chars! "cim_rep_name_node", chars! "cim_rep_name_node",
      callsRepositoryFile, debug_cim_rep_name_node, members_cim_rep_name_node⟩,
    ⟨chars! "RepositoryFile", chars! "cim_rep_node_bin_header", chars! "cim_rep_node_bin_header",
      callsRepositoryFile, debug_cim_rep_node_bin_header, members_cim_rep_node_bin_header⟩,
    ⟨chars! "RepositoryFile", chars! "cim_rep_node_cell", chars! "cim_rep_node_cell",
      callsRepositoryFile, debug_cim_rep_node_cell, members_cim_rep_node_cell⟩,
    ⟨chars! "RepositoryFile", chars! "cim_rep_unknown_node5", chars! "cim_rep_unknown_node5",
      callsRepositoryFile, debug_cim_rep_unknown_node5, members_cim_rep_unknown_node5⟩]

/-- All structures that are shown in debug mode. -/
def uses : List Use :=
  uses_alias_data ++
    uses_asl ++
    uses_bookmark_data ++
    uses_bsm ++
    uses_chrome_cache ++
    uses_cups_ipp ++
    uses_detection_history ++
    uses_firefox_cache1 ++
    uses_fseventsd ++
    uses_gzipfile ++
    uses_job ++
    uses_jump_list ++
    uses_keychain ++
    uses_leveldb ++
    uses_recycle_bin ++
    uses_recycler ++
    uses_spotlight_storedb ++
    uses_systemd ++
    uses_aul_dsc ++
    uses_aul_timesync ++
    uses_aul_tracev3 ++
    uses_aul_uuidtext ++
    uses_usn_journal ++
    uses_wmi_repository

end Dtf.DebugTables
