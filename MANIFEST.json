{
 "claims": [
  {
   "property": "C01",
   "status": "proved",
   "theorems": [
    "Props.C01_identifier_accepts",
    "Props.C01_identifier_error"
   ],
   "note": ""
  },
  {
   "property": "C02",
   "status": "proved",
   "theorems": [
    "Props.C02_project_name_accepts",
    "Props.C02_project_name_error"
   ],
   "note": ""
  },
  {
   "property": "C03",
   "status": "proved",
   "theorems": [
    "Props.C03_map_key_accepts",
    "Props.C03_map_key_error",
    "Props.C03_extension_key_accepts",
    "Props.C03_extension_key_error",
    "Props.C03_extension_key_strip"
   ],
   "note": ""
  },
  {
   "property": "C04",
   "status": "proved",
   "theorems": [
    "Props.C04_hostname_accepts",
    "Props.C04_hostname_error"
   ],
   "note": ""
  },
  {
   "property": "C05",
   "status": "proved",
   "theorems": [
    "Props.C05_user_name_accepts"
   ],
   "note": ""
  },
  {
   "property": "C06",
   "status": "proved",
   "theorems": [
    "Props.C06_ulimit_resource_accepts",
    "Props.C06_cache_option_accepts",
    "Props.C06_build_network_parse",
    "Props.C06_build_network_text"
   ],
   "note": ""
  },
  {
   "property": "C07",
   "status": "proved",
   "theorems": [
    "Props.C07_duration_round_trip"
   ],
   "note": ""
  },
  {
   "property": "C08",
   "status": "proved",
   "theorems": [
    "Props.C08_duration_accepts",
    "Props.C08_duration_error_empty",
    "Props.C08_duration_error_no_digits",
    "Props.C08_duration_error_missing_unit",
    "Props.C08_duration_error_invalid_unit",
    "Props.C08_duration_error_overflow"
   ],
   "note": ""
  },
  {
   "property": "C09",
   "status": "partial",
   "theorems": [
    "Props.C09_duration_panics_iff",
    "Props.C09_duration_never_panics_false",
    "Props.C09_duration_never_panics_partial"
   ],
   "note": "The code violates the property: parse panics on a number above 2^64-1. Proved: exact characterisation of the panicking inputs, the negation, and the guarded version."
  },
  {
   "property": "C10",
   "status": "proved",
   "theorems": [
    "Props.C10_byte_value_accepts",
    "Props.C10_byte_value_round_trip",
    "Props.C10_byte_value_serde_round_trip"
   ],
   "note": ""
  },
  {
   "property": "C11",
   "status": "proved",
   "theorems": [
    "Props.C11_into_bytes_exact"
   ],
   "note": ""
  },
  {
   "property": "C12",
   "status": "proved",
   "theorems": [
    "Props.C12_limit_round_trip",
    "Props.C12_limit_byte_value_round_trip",
    "Props.C12_limit_u32_round_trip",
    "Props.C12_limit_minus_one",
    "Props.C12_limit_negative",
    "Props.C12_limit_byte_value_integer",
    "Props.C12_limit_u32_integer",
    "Props.C12_limit_byte_value_text",
    "Props.C12_limit_byte_value_serde_round_trip",
    "Props.C12_limit_u32_serde_round_trip"
   ],
   "note": ""
  },
  {
   "property": "C13",
   "status": "partial",
   "theorems": [
    "Props.C13_range_new",
    "Props.C13_range_new_error",
    "Props.C13_range_new_ok",
    "Props.C13_range_ports",
    "Props.C13_range_round_trip",
    "Props.C13_range_accepts",
    "Props.C13_range_size_partial",
    "Props.C13_range_size_false",
    "Props.C13_range_add",
    "Props.C13_range_sub",
    "Props.C13_range_add_any",
    "Props.C13_range_sub_any"
   ],
   "note": "Everything is proved except that size() of the full range 0-65535 overflows u16 (negation proved)."
  },
  {
   "property": "C14",
   "status": "partial",
   "theorems": [
    "Props.C14_short_port_panics_iff",
    "Props.C14_range_parse_validates_false",
    "Props.C14_short_ranges_parse_panics",
    "Props.C14_range_parse_validates_partial",
    "Props.C14_short_ranges_panics_iff",
    "Props.C14_short_port_panics"
   ],
   "note": "The code violates the property: from_str accepts an end below the start. Proved: the negation, the panic it leads to, and what parsed ranges do satisfy."
  },
  {
   "property": "C15",
   "status": "proved",
   "theorems": [
    "Props.C15_short_ranges_balanced",
    "Props.C15_short_ranges_made_balanced",
    "Props.C15_rejected_unchanged",
    "Props.C15_replace_host",
    "Props.C15_replace_container",
    "Props.C15_take_host"
   ],
   "note": ""
  },
  {
   "property": "C16",
   "status": "proved",
   "theorems": [
    "Props.C16_short_ranges_round_trip",
    "Props.C16_short_ranges_pairs",
    "Props.C16_short_ranges_serde_round_trip",
    "Props.C16_short_ranges_accepts",
    "Props.C16_short_ranges_reads_back",
    "Props.C16_short_ranges_read"
   ],
   "note": ""
  },
  {
   "property": "C17",
   "status": "proved",
   "theorems": [
    "Props.C17_short_port_round_trip",
    "Props.C17_short_port_serde_round_trip",
    "Props.C17_short_port_accepts",
    "Props.C17_short_port_reads_back",
    "Props.C17_short_port_read"
   ],
   "note": ""
  },
  {
   "property": "C18",
   "status": "proved",
   "theorems": [
    "Props.C18_short_port_into_long"
   ],
   "note": ""
  },
  {
   "property": "C19",
   "status": "proved",
   "theorems": [
    "Props.C19_into_short_lossless",
    "Props.C19_into_short_complete"
   ],
   "note": ""
  },
  {
   "property": "C20",
   "status": "proved",
   "theorems": [
    "Props.C20_into_long_iter",
    "Props.C20_into_short_iter",
    "Props.C20_short_then_long"
   ],
   "note": ""
  },
  {
   "property": "C21",
   "status": "proved",
   "theorems": [
    "Props.C21_protocol_round_trip",
    "Props.C21_protocol_text",
    "Props.C21_protocol_accepts"
   ],
   "note": ""
  },
  {
   "property": "C22",
   "status": "proved",
   "theorems": [
    "Props.C22_expose_round_trip",
    "Props.C22_expose_serde_round_trip",
    "Props.C22_expose_accepts",
    "Props.C22_expose_reads_back",
    "Props.C22_expose_read"
   ],
   "note": ""
  },
  {
   "property": "C23",
   "status": "proved",
   "theorems": [
    "Props.C23_validate_networks"
   ],
   "note": ""
  },
  {
   "property": "C24",
   "status": "proved",
   "theorems": [
    "Props.C24_validate_configs",
    "Props.C24_validate_secrets"
   ],
   "note": ""
  },
  {
   "property": "C25",
   "status": "proved",
   "theorems": [
    "Props.C25_validate_volumes_error",
    "Props.C25_validate_volumes",
    "Props.C25_validate_volumes_sound"
   ],
   "note": ""
  },
  {
   "property": "C26",
   "status": "partial",
   "theorems": [
    "Props.C26_single_service_volume_false",
    "Props.C26_single_service_volume_partial",
    "Props.C26_rejects_iff",
    "Props.C26_shared_volume_required"
   ],
   "note": "The code counts mentions, not services: a volume mounted twice by one service is reported (negation proved). C26_rejects_iff: a file is rejected exactly if an undeclared volume is used by two services or mounted twice by one."
  },
  {
   "property": "C27",
   "status": "proved",
   "theorems": [
    "Props.C27_validate_all_ok",
    "Props.C27_validate_all_error",
    "Props.C27_validate_all_meaning"
   ],
   "note": ""
  },
  {
   "property": "C28",
   "status": "proved",
   "theorems": [
    "Props.C28_name_new",
    "Props.C28_name_new_text",
    "Props.C28_name_registry",
    "Props.C28_part"
   ],
   "note": ""
  },
  {
   "property": "C29",
   "status": "proved",
   "theorems": [
    "Props.C29_tag_new",
    "Props.C29_digest_new",
    "Props.C29_tag_error"
   ],
   "note": ""
  },
  {
   "property": "C30",
   "status": "proved",
   "theorems": [
    "Props.C30_parse_parts",
    "Props.C30_not_both"
   ],
   "note": ""
  },
  {
   "property": "C31",
   "status": "proved",
   "theorems": [
    "Props.C31_parse_text",
    "Props.C31_accepts",
    "Props.C31_accepted",
    "Props.C31_port_read_as_tag"
   ],
   "note": "Includes the exact set of accepted texts; a lone registry with a port and no tag is excluded by the property and shown to be read differently."
  },
  {
   "property": "C32",
   "status": "proved",
   "theorems": [
    "Props.C32_edits",
    "Props.C32_edit",
    "Props.C32_set_tag",
    "Props.C32_set_name"
   ],
   "note": ""
  },
  {
   "property": "C33",
   "status": "partial",
   "theorems": [
    "Props.C33_from_parts_partial",
    "Props.C33_from_parts_false"
   ],
   "note": "The code violates the property for every tag or digest: from_parts computes the position after pushing, so the getters panic (proved for all names and tags). Holds without tag or digest."
  },
  {
   "property": "C34",
   "status": "partial",
   "theorems": [
    "Props.C34_set_registry_partial",
    "Props.C34_edits_partial",
    "Props.C34_set_registry_false",
    "Props.C34_only_registry"
   ],
   "note": "False when the registry is the whole name: removal panics or corrupts the image (proved for all such images). Every other call and every sequence of other calls is proved correct."
  },
  {
   "property": "C35",
   "status": "proved",
   "theorems": [
    "Props.C35_source_parse",
    "Props.C35_source_kind",
    "Props.C35_source_text"
   ],
   "note": ""
  },
  {
   "property": "C36",
   "status": "proved",
   "theorems": [
    "Props.C36_absolute_path_new",
    "Props.C36_host_path_new",
    "Props.C36_absolute_path_invariant",
    "Props.C36_host_path_invariant",
    "Props.C36_host_path_pop",
    "Props.C36_absolute_path_pop",
    "Props.C36_push"
   ],
   "note": ""
  },
  {
   "property": "C37",
   "status": "proved",
   "theorems": [
    "Props.C37_short_volume_accepts",
    "Props.C37_short_volume_round_trip"
   ],
   "note": ""
  },
  {
   "property": "C38",
   "status": "partial",
   "theorems": [
    "Props.C38_into_long",
    "Props.C38_into_long_into_short_partial",
    "Props.C38_into_long_into_short_false"
   ],
   "note": "Relabeling (z/Z) on a named volume is dropped by into_long (negation proved); the exact condition for the round trip is proved."
  },
  {
   "property": "C39",
   "status": "partial",
   "theorems": [
    "Props.C39_into_short_error",
    "Props.C39_into_short_lossless_partial",
    "Props.C39_into_short_lossless_false",
    "Props.C39_into_short_iter",
    "Props.C39_into_short_target",
    "Props.C39_into_short_complete",
    "Props.C39_into_short_iff",
    "Props.C39_source"
   ],
   "note": "Three kinds of mount lose information (negation proved for one); the theorem says exactly which mounts are lossless."
  },
  {
   "property": "C40",
   "status": "proved",
   "theorems": [
    "Props.C40_named_volumes",
    "Props.C40_named_volumes_long",
    "Props.C40_named_volumes_mem"
   ],
   "note": ""
  },
  {
   "property": "C41",
   "status": "proved",
   "theorems": [
    "Props.C41_link_accepts",
    "Props.C41_link_round_trip",
    "Props.C41_link_text",
    "Props.C41_link_bare"
   ],
   "note": ""
  },
  {
   "property": "C42",
   "status": "proved",
   "theorems": [
    "Props.C42_ipc_accepts",
    "Props.C42_ipc_text",
    "Props.C42_ipc_round_trip",
    "Props.C42_ipc_service",
    "Props.C42_network_mode_accepts",
    "Props.C42_network_mode_text",
    "Props.C42_network_mode_round_trip",
    "Props.C42_network_mode_service",
    "Props.C42_endpoint_mode_accepts",
    "Props.C42_endpoint_mode_text",
    "Props.C42_endpoint_mode_round_trip",
    "Props.C42_capability_accepts",
    "Props.C42_capability_text",
    "Props.C42_capability_round_trip",
    "Props.C42_driver_accepts",
    "Props.C42_driver_text",
    "Props.C42_driver_round_trip"
   ],
   "note": ""
  },
  {
   "property": "C43",
   "status": "partial",
   "theorems": [
    "Props.C43_volumes_from_accepts",
    "Props.C43_volumes_from_text",
    "Props.C43_volumes_from_round_trip_partial",
    "Props.C43_volumes_from_round_trip_false"
   ],
   "note": "The code violates the property: a container named ro or rw without the read_only flag is written as text that reads as something else (negation proved); the exact condition is proved."
  },
  {
   "property": "C44",
   "status": "proved",
   "theorems": [
    "Props.C44_permissions_accepts",
    "Props.C44_permissions_error",
    "Props.C44_permissions_round_trip",
    "Props.C44_device_accepts",
    "Props.C44_device_round_trip",
    "Props.C44_kind",
    "Props.C44_cgroup_rule_accepts",
    "Props.C44_cgroup_rule_round_trip"
   ],
   "note": ""
  },
  {
   "property": "C45",
   "status": "proved",
   "theorems": [
    "Props.C45_id_not_name",
    "Props.C45_id_or_name_accepts",
    "Props.C45_number_is_id",
    "Props.C45_user_accepts",
    "Props.C45_id_or_name_round_trip",
    "Props.C45_user_round_trip",
    "Props.C45_integer"
   ],
   "note": ""
  },
  {
   "property": "C46",
   "status": "proved",
   "theorems": [
    "Props.C46_mac_accepts",
    "Props.C46_mac_round_trip",
    "Props.C46_mac_six_bytes"
   ],
   "note": ""
  },
  {
   "property": "C47",
   "status": "partial",
   "theorems": [
    "Props.C47_mac_two_digits_partial",
    "Props.C47_mac_two_digits_false"
   ],
   "note": "The code violates the property: the first byte is printed without zero padding (negation proved); it holds exactly when the first byte is at least 16."
  },
  {
   "property": "C48",
   "status": "proved",
   "theorems": [
    "Props.C48_cpuset_accepts",
    "Props.C48_cpuset_display",
    "Props.C48_cpuset_round_trip"
   ],
   "note": ""
  },
  {
   "property": "C49",
   "status": "proved",
   "theorems": [
    "Props.C49_platform_accepts",
    "Props.C49_platform_round_trip",
    "Props.C49_platform_text",
    "Props.C49_platform_os_arch",
    "Props.C49_platform_of_os",
    "Props.C49_try_from_arch",
    "Props.C49_parts_round_trip",
    "Props.C49_variant",
    "Props.C49_os_arch",
    "Props.C49_invalid_arch_message",
    "Props.C49_platform_table"
   ],
   "note": "Proved for every table the platforms! macro accepts with unambiguous names, and instantiated at the table of the library, whose accepted texts are listed in the specification."
  },
  {
   "property": "C50",
   "status": "proved",
   "theorems": [
    "Props.C50_dockerfile",
    "Props.C50_network_config",
    "Props.C50_config_source",
    "Props.C50_secret_source",
    "Props.C50_both_error",
    "Props.C50_credential_spec",
    "Props.C50_mapping_only",
    "Props.C50_round_trip"
   ],
   "note": ""
  },
  {
   "property": "C51",
   "status": "proved",
   "theorems": [
    "Props.C51_derived",
    "Props.C51_derived_optional",
    "Props.C51_known_fields",
    "Props.C51_env_file",
    "Props.C51_ulimit",
    "Props.C51_config_or_secret",
    "Props.C51_port_ranges",
    "Props.C51_include",
    "Props.C51_from_short",
    "Props.C51_build",
    "Props.C51_depends_on",
    "Props.C51_networks",
    "Props.C51_keys_into_map",
    "Props.C51_depends_on_round_trip",
    "Props.C51_depends_on_either",
    "Props.C51_networks_either",
    "Props.C51_keys",
    "Props.C51_either"
   ],
   "note": "Field types of the derive macro are covered generically; include also takes a one element list as short and networks an attachment without settings, both stated exactly."
  },
  {
   "property": "C52",
   "status": "proved",
   "theorems": [
    "Props.C52_percent_new",
    "Props.C52_oom_score_adj_new",
    "Props.C52_weight_new",
    "Props.C52_bounded_deserialize",
    "Props.C52_bounded_serde_round_trip"
   ],
   "note": ""
  },
  {
   "property": "C53",
   "status": "proved",
   "theorems": [
    "Props.C53_disable",
    "Props.C53_command",
    "Props.C53_mapping_only",
    "Props.C53_round_trip"
   ],
   "note": ""
  },
  {
   "property": "C54",
   "status": "partial",
   "theorems": [
    "Props.C54_order_partial",
    "Props.C54_order_false"
   ],
   "note": "The code violates the property when disable: false is given together with test: [NONE] (negation proved); order does not matter otherwise."
  },
  {
   "property": "C55",
   "status": "proved",
   "theorems": [
    "Props.C55_into_map",
    "Props.C55_into_map_error",
    "Props.C55_into_list",
    "Props.C55_map_list_map",
    "Props.C55_list_map_list"
   ],
   "note": ""
  },
  {
   "property": "C56",
   "status": "proved",
   "theorems": [
    "Props.C56_number_parse",
    "Props.C56_value_parse",
    "Props.C56_string_or_number_parse",
    "Props.C56_number_print_parse",
    "Props.C56_value_print_parse",
    "Props.C56_value_parse_print",
    "Props.C56_digits_reprint",
    "Props.C56_value_serde"
   ],
   "note": ""
  },
  {
   "property": "C57",
   "status": "partial",
   "theorems": [
    "Props.C57_parse",
    "Props.C57_parsed_canonical",
    "Props.C57_round_trip_partial",
    "Props.C57_parsed_round_trip",
    "Props.C57_lone_type_false",
    "Props.C57_round_trip_false",
    "Props.C57_into_options"
   ],
   "note": "The code violates the property: a type without options is written as a text that is rejected, because texts without a comma are only tried as images (negation proved for all such types). The exact set of caches that round trip is proved, and everything that was parsed is in it."
  },
  {
   "property": "C58",
   "status": "proved",
   "theorems": [
    "Props.C58_ssh_accepts",
    "Props.C58_ssh_errors",
    "Props.C58_ssh_round_trip",
    "Props.C58_ssh_new"
   ],
   "note": ""
  },
  {
   "property": "C59",
   "status": "proved",
   "theorems": [
    "Props.C59_count_accepts",
    "Props.C59_all_not_number",
    "Props.C59_count_serde"
   ],
   "note": ""
  },
  {
   "property": "C60",
   "status": "proved",
   "theorems": [
    "Props.C60_external",
    "Props.C60_compose",
    "Props.C60_external_round_trip",
    "Props.C60_compose_round_trip"
   ],
   "note": ""
  },
  {
   "property": "C61",
   "status": "partial",
   "theorems": [
    "Props.C61_duration_us_partial",
    "Props.C61_duration_us_none_and_number",
    "Props.C61_duration_us_false"
   ],
   "note": "The code violates the property above 2^64-1 microseconds: the field is written as u128 and read as u64 (negation proved); it holds exactly up to that bound."
  },
  {
   "property": "C62",
   "status": "proved",
   "theorems": [
    "Props.C62_item_or_list_views",
    "Props.C62_item_or_list_deserialize",
    "Props.C62_item_or_list_unique",
    "Props.C62_item_or_list_round_trip",
    "Props.C62_env_file_views"
   ],
   "note": ""
  },
  {
   "property": "C63",
   "status": "proved",
   "theorems": [
    "Props.C63_extra_hosts",
    "Props.C63_forms_agree"
   ],
   "note": ""
  },
  {
   "property": "C64",
   "status": "proved",
   "theorems": [
    "Props.C64_is_git_repo_url",
    "Props.C64_branch_or_tag",
    "Props.C64_subdirectory",
    "Props.C64_context_parse"
   ],
   "note": ""
  },
  {
   "property": "C65",
   "status": "proved",
   "theorems": [
    "Props.C65_cpus_new",
    "Props.C65_cpus_integers",
    "Props.C65_cpus_serde_round_trip"
   ],
   "note": ""
  },
  {
   "property": "C66",
   "status": "partial",
   "theorems": [
    "Props.C66_parsed_reparse",
    "Props.C66_edits_partial",
    "Props.C66_registry_edits_partial",
    "Props.C66_reparse_false",
    "Props.C66_registry_false"
   ],
   "note": "False in two corners (witnesses proved); the theorems say exactly when the edited image is read back identically."
  },
  {
   "property": "C67",
   "status": "partial",
   "theorems": [
    "Props.C67_cpus_integer_false",
    "Props.C67_cpus_deserialize_partial"
   ],
   "note": "The code violates the property: Cpus only accepts floats, so every integer is rejected (proved); what is accepted is characterised."
  },
  {
   "property": "C68",
   "status": "proved",
   "theorems": [
    "Props.C68_duration_field"
   ],
   "note": ""
  },
  {
   "property": "C69",
   "status": "proved",
   "theorems": [
    "Props.C69_number_to_integers",
    "Props.C69_number_to_float",
    "Props.C69_value_to_number"
   ],
   "note": ""
  },
  {
   "property": "C70",
   "status": "proved",
   "theorems": [
    "Props.C70_reads",
    "Props.C70_given_once",
    "Props.C70_required",
    "Props.C70_one_of",
    "Props.C70_other_keys",
    "Props.C70_mount_keys",
    "Props.C70_optional",
    "Props.C70_ignored",
    "Props.C70_extension",
    "Props.C70_mount"
   ],
   "note": "Over all 44 structs with derived deserialization and Mount."
  },
  {
   "property": "C71",
   "status": "proved",
   "theorems": [
    "Props.C71_round_trip",
    "Props.C71_compose",
    "Props.C71_mount"
   ],
   "note": "Over all structs with derived serialization as tables of fields; exceptions are part of the validity of a value. Conditions on IP addresses, networks and HashMap iteration are in EnvOk."
  },
  {
   "property": "C72",
   "status": "proved",
   "theorems": [
    "Props.C72_order",
    "Props.C72_mount_order"
   ],
   "note": ""
  },
  {
   "property": "C73",
   "status": "proved",
   "theorems": [
    "Props.C73_written"
   ],
   "note": ""
  },
  {
   "property": "C74",
   "status": "partial",
   "theorems": [
    "Props.C74_panics_only_there",
    "Props.C74_panics_there",
    "Props.C74_other_structs",
    "Props.C74_never_panics_partial",
    "Props.C74_untimed_never_panics",
    "Props.C74_never_panics_false"
   ],
   "note": "The code violates the property: huge numbers in durations and reversed or full port ranges panic (negation proved for every struct that contains durations). Proved where and for which texts this happens (only there, and there for every accepted file in which such a text is put), and that all other structs never panic."
  },
  {
   "property": "C75",
   "status": "proved",
   "theorems": [
    "Props.C75_reads",
    "Props.C75_compose",
    "Props.C75_mount",
    "Props.C75_unique",
    "Props.C75_writes",
    "Props.C75_compose_writes",
    "Props.C75_mount_writes"
   ],
   "note": ""
  },
  {
   "property": "C76",
   "status": "partial",
   "theorems": [
    "Props.C76_struct",
    "Props.C76_empty_map_false",
    "Props.C76_volumes_from_false",
    "Props.C76_compose",
    "Props.C76_repeated",
    "Props.C76_mount"
   ],
   "note": "False for an empty map of labels, arguments, options, environment, annotations, sysctls or dependencies, which is left out and read as an empty list, and for volumes_from entries container:ro:rw and container:rw:rw (negations proved). Proved for every other file; nothing is assumed of the loaded values. The text of a URL is assumed to be parsed as that URL, and . not to be a URL (UrlOk)."
  },
  {
   "property": "C77",
   "status": "proved",
   "theorems": [
    "Props.C77_empty",
    "Props.C77_healthcheck"
   ],
   "note": "Over all structs with is_empty; extensions have valid extension keys."
  },
  {
   "property": "C78",
   "status": "proved",
   "theorems": [
    "Props.C78_equal",
    "Props.C78_equivalence",
    "Props.C78_hash",
    "Props.C78_set",
    "Props.C78_item_or_list"
   ],
   "note": "The == and hash of paths and of extension values are from other crates: == of paths is by components, hashes are parameters assumed to agree with it (PartsHash)."
  },
  {
   "property": "C79",
   "status": "partial",
   "theorems": [
    "Props.C79_inclusive",
    "Props.C79_ranges",
    "Props.C79_port_partial",
    "Props.C79_port_false",
    "Props.C79_port_text",
    "Props.C79_convert",
    "Props.C79_convertible",
    "Props.C79_count",
    "Props.C79_major_minor"
   ],
   "note": "False for ranges read from a text n-n (negation proved); proved for ranges made by the constructors, and exactly for ranges read from text."
  },
  {
   "property": "C80",
   "status": "partial",
   "theorems": [
    "Props.C80_equal_partial",
    "Props.C80_same_parts",
    "Props.C80_equal_false",
    "Props.C80_text",
    "Props.C80_order",
    "Props.C80_order_trans",
    "Props.C80_hash"
   ],
   "note": "False for images changed by setters (negation proved: equal texts, different parts); proved for parsed images. Order, hash and comparison with text for all images."
  },
  {
   "property": "C81",
   "status": "proved",
   "theorems": [
    "Props.C81_message",
    "Props.C81_tells"
   ],
   "note": ""
  },
  {
   "property": "C82",
   "status": "proved",
   "theorems": [
    "Props.C82_texts",
    "Props.C82_build_network",
    "Props.C82_words",
    "Props.C82_words_injective"
   ],
   "note": ""
  },
  {
   "property": "C83",
   "status": "proved",
   "theorems": [
    "Props.C83_steps",
    "Props.C83_kinds",
    "Props.C83_nothing_to_merge",
    "Props.C83_last"
   ],
   "note": "serde_yaml is a parameter; that reading text directly agrees with parsing to a value and reading that is a hypothesis."
  },
  {
   "property": "C84",
   "status": "proved",
   "theorems": [
    "Props.C84_message",
    "Props.C84_total"
   ],
   "note": ""
  },
  {
   "property": "C85",
   "status": "proved",
   "theorems": [
    "Props.C85_optional",
    "Props.C85_requiring",
    "Props.C85_values",
    "Props.C85_context",
    "Props.C85_permissions",
    "Props.C85_is_empty",
    "Props.C85_device_is_empty"
   ],
   "note": ""
  },
  {
   "property": "C86",
   "status": "partial",
   "theorems": [
    "Props.C86_user",
    "Props.C86_user_of_parts",
    "Props.C86_link",
    "Props.C86_volumes_from_partial",
    "Props.C86_volumes_from_false",
    "Props.C86_port",
    "Props.C86_port_range",
    "Props.C86_source",
    "Props.C86_short_volume",
    "Props.C86_mount",
    "Props.C86_target",
    "Props.C86_mount_kind",
    "Props.C86_bind_options",
    "Props.C86_device",
    "Props.C86_resource_device",
    "Props.C86_cache_partial",
    "Props.C86_cache_false",
    "Props.C86_source_of_config",
    "Props.C86_resource",
    "Props.C86_env_file",
    "Props.C86_env_files",
    "Props.C86_ulimit",
    "Props.C86_command",
    "Props.C86_item_or_list",
    "Props.C86_context",
    "Props.C86_of_short",
    "Props.C86_of_long",
    "Props.C86_short_settings"
   ],
   "note": "The code violates the property for volumes of a container named ro or rw and for caches made from a type that is not an image (negations proved); everything else is proved, for the colons in short volumes with the exact condition. Not covered: conversions of collections, and conversions between the variants of common::Value (C88)."
  },
  {
   "property": "C87",
   "status": "proved",
   "theorems": [
    "Props.C87_agree",
    "Props.C87_lookup",
    "Props.C87_entries"
   ],
   "note": "Paths (Borrow<Path>) are covered by C78. Buckets of the hash table are not modelled."
  },
  {
   "property": "C88",
   "status": "proved",
   "theorems": [
    "Props.C88_number_errors",
    "Props.C88_value_to_number",
    "Props.C88_value_to_u64",
    "Props.C88_value_to_i64",
    "Props.C88_value_to_f64",
    "Props.C88_value_to_bool",
    "Props.C88_string_or_number_to_number",
    "Props.C88_there_and_back",
    "Props.C88_across",
    "Props.C88_text"
   ],
   "note": ""
  },
  {
   "property": "C89",
   "status": "proved",
   "theorems": [
    "Props.C89_network_mode",
    "Props.C89_ipc",
    "Props.C89_words",
    "Props.C89_id_or_name",
    "Props.C89_cache",
    "Props.C89_context",
    "Props.C89_ssh_auth",
    "Props.C89_number_text",
    "Props.C89_scalars",
    "Props.C89_value_text",
    "Props.C89_list_or_map",
    "Props.C89_short_or_long",
    "Props.C89_resource",
    "Props.C89_mount",
    "Props.C89_resource_name",
    "Props.C89_image_parts"
   ],
   "note": ""
  },
  {
   "property": "C90",
   "status": "proved",
   "theorems": [
    "Props.C90_texts",
    "Props.C90_scalars",
    "Props.C90_option",
    "Props.C90_list",
    "Props.C90_map",
    "Props.C90_item_or_list",
    "Props.C90_short_or_long",
    "Props.C90_compound",
    "Props.C90_structs",
    "Props.C90_visitors"
   ],
   "note": "How serde_yaml delivers the values of a text is not modelled; a value of the model is delivered by the method for its kind."
  },
  {
   "property": "C91",
   "status": "partial",
   "theorems": [
    "Props.C91_all_structs",
    "Props.C91_optional_keys",
    "Props.C91_null_is_absent_partial",
    "Props.C91_null_refused",
    "Props.C91_null_is_absent_false",
    "Props.C91_health_check",
    "Props.C91_credential_spec",
    "Props.C91_mount",
    "Props.C91_mount_refused",
    "Props.C91_mount_type"
   ],
   "note": "False for durations (delay, window, monitor, stop_grace_period, cpu_rt_runtime, cpu_rt_period and those of health checks), which refuse null (negation proved). Proved exactly for all other optional settings; null is proved to be refused by all settings that are not optional by those of health checks and credential specs, and by the required settings and flags of mounts, for whose optional settings null is proved to mean the same as nothing."
  },
  {
   "property": "C92",
   "status": "partial",
   "theorems": [
    "Props.C92_ssh",
    "Props.C92_mac",
    "Props.C92_range",
    "Props.C92_short_ranges",
    "Props.C92_short_port",
    "Props.C92_expose",
    "Props.C92_source",
    "Props.C92_short_volume",
    "Props.C92_permissions",
    "Props.C92_device",
    "Props.C92_cgroup_rule",
    "Props.C92_byte_value_false",
    "Props.C92_byte_value_partial",
    "Props.C92_cpu_set",
    "Props.C92_cpus_false",
    "Props.C92_cpus_partial",
    "Props.C92_link",
    "Props.C92_ipc",
    "Props.C92_network_mode",
    "Props.C92_volumes_from_source",
    "Props.C92_volumes_from",
    "Props.C92_build_network",
    "Props.C92_identifier",
    "Props.C92_map_key",
    "Props.C92_extension_key",
    "Props.C92_project_name",
    "Props.C92_hostname",
    "Props.C92_user_name",
    "Props.C92_user",
    "Props.C92_ulimit_resource",
    "Props.C92_cache_option",
    "Props.C92_image_name",
    "Props.C92_tag",
    "Props.C92_digest",
    "Props.C92_image",
    "Props.C92_cache"
   ],
   "note": "False for numbers of bytes above 2^64-1 without a unit (said to have an unknown unit) and for minus zero and NaNs with a sign as numbers of CPUs (said to be negative); negations proved, and the reason is proved right exactly in all other cases. The errors of platforms are in C49, those of durations in C08."
  },
  {
   "property": "C93",
   "status": "partial",
   "theorems": [
    "Props.C93_number",
    "Props.C93_value_to_u64",
    "Props.C93_value_to_i64",
    "Props.C93_value_to_f64",
    "Props.C93_value_to_bool",
    "Props.C93_identifier",
    "Props.C93_map_key",
    "Props.C93_extension_key",
    "Props.C93_project_name",
    "Props.C93_hostname",
    "Props.C93_user_name",
    "Props.C93_user",
    "Props.C93_ulimit_resource",
    "Props.C93_cache_option",
    "Props.C93_image_name",
    "Props.C93_empty_part_false",
    "Props.C93_tag",
    "Props.C93_digest",
    "Props.C93_image",
    "Props.C93_cache",
    "Props.C93_ssh",
    "Props.C93_mac",
    "Props.C93_range",
    "Props.C93_short_ranges",
    "Props.C93_short_port",
    "Props.C93_expose",
    "Props.C93_source",
    "Props.C93_short_volume",
    "Props.C93_permissions",
    "Props.C93_device",
    "Props.C93_cgroup_rule",
    "Props.C93_byte_value_false",
    "Props.C93_byte_value_partial",
    "Props.C93_cpu_set",
    "Props.C93_duration_false",
    "Props.C93_duration_partial",
    "Props.C93_link",
    "Props.C93_ipc",
    "Props.C93_network_mode",
    "Props.C93_volumes_from",
    "Props.C93_build_network",
    "Props.C93_percent",
    "Props.C93_oom_score_adj",
    "Props.C93_weight",
    "Props.C93_platform",
    "Props.C93_range_new",
    "Props.C93_cpus"
   ],
   "note": "False for numbers of bytes above 2^64-1 without a unit, for durations that have digits but do not start with one, such as .5s (said not to contain digits), and for the explanation of an empty part of an image name (two slashes or an empty name, but a/ has neither); negations proved, and the first two are proved to be the only such texts of their kind. Messages of std are written out in the model; those for IP addresses are a parameter."
  },
  {
   "property": "C94",
   "status": "partial",
   "theorems": [
    "Props.C94_identifier",
    "Props.C94_map_key",
    "Props.C94_extension_key",
    "Props.C94_project_name",
    "Props.C94_hostname",
    "Props.C94_user",
    "Props.C94_ulimit_resource",
    "Props.C94_image_name",
    "Props.C94_tag",
    "Props.C94_digest_false",
    "Props.C94_digest_partial",
    "Props.C94_image_partial",
    "Props.C94_cache_partial",
    "Props.C94_cache_option",
    "Props.C94_ssh",
    "Props.C94_mac",
    "Props.C94_range",
    "Props.C94_expose",
    "Props.C94_short_port",
    "Props.C94_short_volume",
    "Props.C94_device",
    "Props.C94_cgroup_rule",
    "Props.C94_byte_value",
    "Props.C94_cpu_set",
    "Props.C94_duration",
    "Props.C94_link",
    "Props.C94_ipc",
    "Props.C94_network_mode",
    "Props.C94_volumes_from",
    "Props.C94_build_network",
    "Props.C94_platform"
   ],
   "note": "False for the message about a character in the algorithm of a digest (negation proved), which is proved to be the only one, for digests, images and caches."
  },
  {
   "property": "C95",
   "status": "partial",
   "theorems": [
    "Props.C95_same_range",
    "Props.C95_moved",
    "Props.C95_moved_ok",
    "Props.C95_same_ranges",
    "Props.C95_same_parse",
    "Props.C95_same_cpu_set",
    "Props.C95_same_image",
    "Props.C95_nameless_image",
    "Props.C95_size",
    "Props.C95_new",
    "Props.C95_balanced",
    "Props.C95_ranges_accepts",
    "Props.C95_port_accepts",
    "Props.C95_parse_balanced_false",
    "Props.C95_parse_balanced_partial",
    "Props.C95_lost_ports"
   ],
   "note": "False for pairs of ranges read from a text in which exactly one range has its end below its start, such as 9-5:1-65533 (negation proved, and proved to be the only ones): sizes are compared modulo 65536. The rest is proved in full."
  },
  {
   "property": "C96",
   "status": "proved",
   "theorems": [
    "Props.C96_networks",
    "Props.C96_configs",
    "Props.C96_secrets",
    "Props.C96_volumes_error",
    "Props.C96_volumes_required",
    "Props.C96_all_sound",
    "Props.C96_all_complete",
    "Props.C96_saved",
    "Props.C96_first_network",
    "Props.C96_first_config",
    "Props.C96_first_secret",
    "Props.C96_first_volume"
   ],
   "note": ""
  },
  {
   "property": "C97",
   "status": "proved",
   "theorems": [
    "Props.C97_configs",
    "Props.C97_ulimits",
    "Props.C97_build",
    "Props.C97_include",
    "Props.C97_env_file",
    "Props.C97_depends_on",
    "Props.C97_networks",
    "Props.C97_volumes",
    "Props.C97_ports",
    "Props.C97_service",
    "Props.C97_file",
    "Props.C97_no_short",
    "Props.C97_conversions",
    "Props.C97_validation",
    "Props.C97_stays_valid",
    "Props.C97_validation_not_back"
   ],
   "note": ""
  },
  {
   "property": "C98",
   "status": "partial",
   "theorems": [
    "Props.C98_struct",
    "Props.C98_mount",
    "Props.C98_resource",
    "Props.C98_service_partial",
    "Props.C98_file_partial",
    "Props.C98_readable_partial",
    "Props.C98_healthcheck_false",
    "Props.C98_ports_false",
    "Props.C98_volumes_false"
   ],
   "note": "The code violates the property for disable and test of a health check and for the order of extensions within a port or volume (negations proved); proved for every other change of order at every depth, and without restriction for every struct other than services and files."
  },
  {
   "property": "C99",
   "status": "proved",
   "theorems": [
    "Props.C99_struct",
    "Props.C99_mount",
    "Props.C99_resource",
    "Props.C99_healthcheck",
    "Props.C99_service",
    "Props.C99_file",
    "Props.C99_entries",
    "Props.C99_test"
   ],
   "note": ""
  },
  {
   "property": "C100",
   "status": "proved",
   "theorems": [
    "Props.C100_read",
    "Props.C100_keys",
    "Props.C100_resource",
    "Props.C100_mount",
    "Props.C100_healthcheck",
    "Props.C100_credential_spec"
   ],
   "note": ""
  },
  {
   "property": "C101",
   "status": "proved",
   "theorems": [
    "Props.C101_sequence",
    "Props.C101_no_sequence",
    "Props.C101_otherwise",
    "Props.C101_file"
   ],
   "note": ""
  },
  {
   "property": "C102",
   "status": "proved",
   "theorems": [
    "Props.C102_ipv4",
    "Props.C102_ipv6",
    "Props.C102_ip",
    "Props.C102_written",
    "Props.C102_round_trip",
    "Props.C102_env",
    "Props.C102_short_port",
    "Props.C102_extra_hosts"
   ],
   "note": "About a model of core::net that was written from memory; the source of the standard library could not be consulted."
  },
  {
   "property": "C103",
   "status": "proved",
   "theorems": [
    "Props.C103_smaller",
    "Props.C103_reported",
    "Props.C103_repair",
    "Props.C103_together"
   ],
   "note": ""
  },
  {
   "property": "C104",
   "status": "proved",
   "theorems": [
    "Props.C104_field",
    "Props.C104_option",
    "Props.C104_as_short",
    "Props.C104_question",
    "Props.C104_default",
    "Props.C104_expecting",
    "Props.C104_definitions",
    "Props.C104_archs",
    "Props.C104_expand"
   ],
   "note": ""
  },
  {
   "property": "C105",
   "status": "partial",
   "theorems": [
    "Props.C105_expected_false",
    "Props.C105_expected_partial"
   ],
   "note": "The code violates the property: the message has an `or` before the first name (negation proved); the exact message is proved."
  },
  {
   "property": "C106",
   "status": "proved",
   "theorems": [
    "Props.C106_reads",
    "Props.C106_unambiguous",
    "Props.C106_rounding",
    "Props.C106_written",
    "Props.C106_round_trip",
    "Props.C106_refused",
    "Props.C106_whole_number",
    "Props.C106_number_print_parse",
    "Props.C106_value_print_parse",
    "Props.C106_extra_hosts",
    "Props.C106_cpus"
   ],
   "note": "About a model of the results of core::num::dec2flt and flt2dec that was written from memory; the source of the standard library could not be consulted."
  },
  {
   "property": "C107",
   "status": "proved",
   "theorems": [
    "Props.C107_doubles",
    "Props.C107_cpus",
    "Props.C107_cpus_double",
    "Props.C107_bounded",
    "Props.C107_limit",
    "Props.C107_mac"
   ],
   "note": ""
  },
  {
   "property": "C108",
   "status": "partial",
   "theorems": [
    "Props.C108_as_short_partial",
    "Props.C108_as_short_false",
    "Props.C108_from_short",
    "Props.C108_default"
   ],
   "note": "The code violates the property for a struct that has no field but the short one: the condition is empty, and `if { .. } else { .. }` does not compile (negation proved; exact otherwise). FromShort and Default are proved in full."
  },
  {
   "property": "C109",
   "status": "partial",
   "theorems": [
    "Props.C109_new",
    "Props.C109_path",
    "Props.C109_context",
    "Props.C109_short_volume_read",
    "Props.C109_short_volume_partial",
    "Props.C109_short_volume_false",
    "Props.C109_device_read",
    "Props.C109_device_partial",
    "Props.C109_device_false",
    "Props.C109_ssh_read",
    "Props.C109_ssh_partial",
    "Props.C109_ssh_false"
   ],
   "note": "The code violates the property for short volumes, devices and SSH entries, which are written with Path::display (negations proved): the bytes that are not UTF-8 are replaced by U+FFFD and the result is always read, as another path. Proved exactly: what is read, and that it is the same exactly if all paths are Unicode. Path settings and build contexts are proved in full."
  },
  {
   "property": "C110",
   "status": "proved",
   "theorems": [
    "Props.C110_path",
    "Props.C110_equal_paths",
    "Props.C110_path_orders",
    "Props.C110_folder",
    "Props.C110_short_or_long"
   ],
   "note": ""
  },
  {
   "property": "C111",
   "status": "proved",
   "theorems": [
    "Props.C111_one_text",
    "Props.C111_integers",
    "Props.C111_doubles",
    "Props.C111_reads",
    "Props.C111_doubles_back",
    "Props.C111_read_back"
   ],
   "note": "Rests on models of LowerExp and UpperExp of the standard library that were written from memory; its source could not be consulted."
  },
  {
   "property": "C112",
   "status": "proved",
   "theorems": [
    "Props.C112_renamed",
    "Props.C112_names_only",
    "Props.C112_merged"
   ],
   "note": ""
  },
  {
   "property": "C113",
   "status": "partial",
   "theorems": [
    "Props.C113_written_out",
    "Props.C113_accepted",
    "Props.C113_rejected",
    "Props.C113_nothing",
    "Props.C113_complete_partial",
    "Props.C113_left_iff",
    "Props.C113_complete_false",
    "Props.C113_file",
    "Props.C113_no_difference"
   ],
   "note": "About a model of serde_yaml::Value::apply_merge that was written from memory: its source is not in /repo and could not be consulted. In this model a << key inside a fragment is put back and stays (negation proved), so that no << is left is proved for fragments without fragments, and the exact condition is proved (C113_left_iff)."
  }
 ]
}
