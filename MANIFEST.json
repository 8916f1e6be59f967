{
 "claims": [
  {
   "property": "C01",
   "status": "proved",
   "theorems": [
    "Netlab.C01_set_contents",
    "Netlab.C01_fresh",
    "Netlab.C01_nodup",
    "Netlab.C01_counter_invariant",
    "Netlab.C01_bounds",
    "Netlab.C01_fatal_iff_exhausted",
    "Netlab.C01_least",
    "Netlab.C01_start_above_limit_not_detected"
   ],
   "note": "The range claim needs start <= max; C01_start_above_limit_not_detected shows the limit is not checked otherwise."
  },
  {
   "property": "C02",
   "status": "proved",
   "theorems": [
    "Netlab.C02_node_ids",
    "Netlab.C02_accepted",
    "Netlab.C02_duplicate_rejected",
    "Netlab.C02_numeric_string_bypasses_limit"
   ],
   "note": "Validation followed by transformation. The 150 limit for static ids is bypassed by numeric strings (C02_numeric_string_bypasses_limit); the 250 limit always holds."
  },
  {
   "property": "C03",
   "status": "proved",
   "theorems": [
    "Netlab.C03_length_and_containment",
    "Netlab.C03_sequential_disjoint",
    "Netlab.C03_sequence_and_exhaustion",
    "Netlab.C03_exhausted_forever"
   ],
   "note": ""
  },
  {
   "property": "C04",
   "status": "proved",
   "theorems": [
    "Netlab.C04_same_index_same_prefix",
    "Netlab.C04_different_requests_disjoint"
   ],
   "note": ""
  },
  {
   "property": "C05",
   "status": "proved",
   "theorems": [
    "Netlab.C05_first_existing_pool",
    "Netlab.C05_no_pool_is_an_error",
    "Netlab.C05_other_pools_untouched"
   ],
   "note": ""
  },
  {
   "property": "C06",
   "status": "proved",
   "theorems": [
    "Netlab.C06_id_based_addresses",
    "Netlab.C06_id_based_distinct",
    "Netlab.C06_id_too_large_is_an_error"
   ],
   "note": ""
  },
  {
   "property": "C07",
   "status": "proved",
   "theorems": [
    "Netlab.C07_sequential_addresses",
    "Netlab.C07_sequential_increasing",
    "Netlab.C07_sequential_skips_gateway",
    "Netlab.C07_exhaustion_is_an_error",
    "Netlab.C07_negative_gateway_not_skipped"
   ],
   "note": "A gateway counted from the end of the prefix is not skipped (C07_negative_gateway_not_skipped); the positive-gateway claim is C07_sequential_skips_gateway."
  },
  {
   "property": "C08",
   "status": "proved",
   "theorems": [
    "Netlab.C08_p2p_addresses",
    "Netlab.C08_two_nodes"
   ],
   "note": ""
  },
  {
   "property": "C09",
   "status": "proved",
   "theorems": [
    "Netlab.C09_explicit_allocation_wins",
    "Netlab.C09_decision_table",
    "Netlab.C09_automatic_choice_succeeds",
    "Netlab.C09_single_node_on_31_fails",
    "Netlab.C09_gateway_at_the_end_of_30"
   ],
   "note": "Success of the automatic choice is proved for prefixes with more than two addresses; C09_single_node_on_31_fails and C09_gateway_at_the_end_of_30 are the corner cases where the claim is false of the code."
  },
  {
   "property": "C10",
   "status": "proved",
   "theorems": [
    "Netlab.C10_index_range",
    "Netlab.C10_static_index_kept",
    "Netlab.C10_unique_unless_static",
    "Netlab.C10_lowest_free_or_exhausted",
    "Netlab.C10_static_index_not_checked"
   ],
   "note": "A user-specified index that is already used is accepted without an error: C10_static_index_not_checked."
  },
  {
   "property": "C11",
   "status": "proved",
   "theorems": [
    "Netlab.C11_numbered_from_start",
    "Netlab.C11_unique_indices",
    "Netlab.C11_lookup",
    "Netlab.C11_default_start_is_positional",
    "Netlab.C11_lag_member_index_collision"
   ],
   "note": "For LAG member links the claim needs the default start value 1 (C11_default_start_is_positional); C11_lag_member_index_collision is the counterexample for other start values."
  },
  {
   "property": "C12",
   "status": "proved",
   "theorems": [
    "Netlab.C12_neighbors_are_other_interfaces",
    "Netlab.C12_neighbor_is_on_the_same_link",
    "Netlab.C12_symmetric"
   ],
   "note": ""
  },
  {
   "property": "C13",
   "status": "proved",
   "theorems": [
    "Netlab.C13_sorted",
    "Netlab.C13_error_iff_loop",
    "Netlab.C13_independent_unchanged",
    "Netlab.C13_idempotent",
    "Netlab.C13_modules",
    "Netlab.C13_plugins"
   ],
   "note": "Sorting, loop detection, stability; used by modules and plugins."
  },
  {
   "property": "C14",
   "status": "proved",
   "theorems": [
    "Netlab.C14_rejected_iff_recursive",
    "Netlab.C14_sort_terminates_iff",
    "Netlab.C14_inner_groups_first",
    "Netlab.C14_members_exact",
    "Netlab.C14_expansion_succeeds",
    "Netlab.C14_aborted_iff",
    "Netlab.C14_repeated_iff",
    "Netlab.C14_deep_hierarchy_aborted"
   ],
   "note": "C14_deep_hierarchy_aborted: a legal hierarchy of 101 nested groups passes the recursion check and is then aborted as recursive."
  },
  {
   "property": "C15",
   "status": "proved",
   "theorems": [
    "Netlab.C15_node_values_kept",
    "Netlab.C15_values_come_from_groups",
    "Netlab.C15_innermost_group_wins",
    "Netlab.C15_unused_module_data",
    "Netlab.C15_device",
    "Netlab.C15_modules"
   ],
   "note": "Group data vs node data, innermost group wins, provenance, unused modules, device and module lists."
  },
  {
   "property": "C16",
   "status": "proved",
   "theorems": [
    "Netlab.C16_templates",
    "Netlab.C16_removal",
    "Netlab.C16_order_kept",
    "Netlab.C16_group_all_is_not_outermost"
   ],
   "note": "Exact list of templates; C16_group_all_is_not_outermost records that group all may follow other groups."
  },
  {
   "property": "C17",
   "status": "proved",
   "theorems": [
    "Netlab.C17_leaves",
    "Netlab.C17_right_wins",
    "Netlab.C17_keys",
    "Netlab.C17_empty",
    "Netlab.C17_idempotent",
    "Netlab.C17_associative",
    "Netlab.C17_not_associative"
   ],
   "note": "Without the restriction associativity is false: C17_not_associative."
  },
  {
   "property": "C18",
   "status": "proved",
   "theorems": [
    "Netlab.C18_most_specific_scope_wins",
    "Netlab.C18_no_other_source",
    "Netlab.C18_not_propagated",
    "Netlab.C18_propagated",
    "Netlab.C18_global"
   ],
   "note": "Most specific scope wins, provenance, non-propagating parameters. Group values are part of the node scope (C15)."
  },
  {
   "property": "C19",
   "status": "proved",
   "theorems": [
    "Netlab.C19_global_list",
    "Netlab.C19_errors_exact",
    "Netlab.C19_accepted_iff"
   ],
   "note": "Errors are exact; acceptance is characterised for all module lists."
  },
  {
   "property": "C20",
   "status": "proved",
   "theorems": [
    "Netlab.C20_every_vlan_has_id",
    "Netlab.C20_static_id_kept",
    "Netlab.C20_copy_has_global_id",
    "Netlab.C20_auto_id_unique",
    "Netlab.C20_vni_kept",
    "Netlab.C20_listed_vlan_has_vni",
    "Netlab.C20_auto_vni_unique",
    "Netlab.C20_vni_above_limit"
   ],
   "note": "Model/Vlan.lean covers vlan.py (ID set, validation of VLAN IDs, merge of global VLANs into nodes) and vxlan.py (static VNI registration and VNI assignment). C20_vni_above_limit shows that start VNI plus VLAN ID is not checked against 16777215."
  },
  {
   "property": "C21",
   "status": "proved",
   "theorems": [
    "Netlab.C21_every_vrf_has_id_rd",
    "Netlab.C21_static_values_kept",
    "Netlab.C21_copy_gets_global_values",
    "Netlab.C21_auto_id_unique",
    "Netlab.C21_auto_rd_unique",
    "Netlab.C21_auto_rd_format",
    "Netlab.C21_autos_differ",
    "Netlab.C21_static_rd_not_registered",
    "Netlab.C21_node_rd_overwritten",
    "Netlab.C21_null_rd_stays_null",
    "Netlab.C21_rt_default",
    "Netlab.C21_rt_resolved"
   ],
   "note": "Without global VRFs static values of node VRFs are not registered, and an automatic RD can equal a static one (C21_static_rd_not_registered). A static RD of a node copy is lost when the copy has no id (C21_node_rd_overwritten); an RD set to null is never generated (C21_null_rd_stays_null)."
  },
  {
   "property": "C22",
   "status": "proved",
   "theorems": [
    "Netlab.C22_transit_vnis_differ",
    "Netlab.C22_transit_vni_values",
    "Netlab.C22_first_auto_vni_clashes",
    "Netlab.C22_mpls_transit_vni_error",
    "Netlab.C22_mpls_transit_vni_unchanged"
   ],
   "note": "C22_transit_vnis_differ shows that the only possible clash is an automatic VNI equal to start_transit_vni with a static VNI of that value; C22_first_auto_vni_clashes shows that it happens. VNIs of VLANs are the subject of C162."
  },
  {
   "property": "C23",
   "status": "proved",
   "theorems": [
    "Netlab.C23_ibgp_sessions_exact",
    "Netlab.C23_ibgp_symmetric",
    "Netlab.C23_ibgp_no_self_no_duplicates",
    "Netlab.C23_ibgp_session_data",
    "Netlab.C23_ibgp_default_mesh",
    "Netlab.C23_ibgp_one_sided"
   ],
   "note": "Reachability of the IBGP endpoint is a part of the statement; without it sessions are one-sided (C23_ibgp_one_sided)."
  },
  {
   "property": "C24",
   "status": "proved",
   "theorems": [
    "Netlab.C24_ebgp_sessions_sound",
    "Netlab.C24_ebgp_sessions_exact",
    "Netlab.C24_ebgp_symmetric",
    "Netlab.C24_ebgp_neighbor_list",
    "Netlab.C24_disabled_end_one_sided",
    "Netlab.C24_no_common_address_family",
    "Netlab.C24_unnumbered_second_neighbor_error"
   ],
   "note": "The code keeps a session towards a router with bgp: False on its interface (C24_disabled_end_one_sided), does not require a common address family (C24_no_common_address_family) and rejects the second session on unnumbered multi-access links (C24_unnumbered_second_neighbor_error). Device features and VRF attributes other than bgp: False are not modelled."
  },
  {
   "property": "C25",
   "status": "proved",
   "theorems": [
    "Netlab.C25_normalized_entries",
    "Netlab.C25_normalize_idempotent",
    "Netlab.C25_merge_entries",
    "Netlab.C25_merge_nothing",
    "Netlab.C25_import_object",
    "Netlab.C25_missing_object",
    "Netlab.C25_merge_strictly_ordered",
    "Netlab.C25_import_idempotent",
    "Netlab.C25_not_sorted_when_unchanged",
    "Netlab.C25_global_community_import_crashes"
   ],
   "note": "Node entries are not sorted when nothing is added (C25_not_sorted_when_unchanged); importing a global community list used in an imported policy crashes the program (C25_global_community_import_crashes)."
  },
  {
   "property": "C26",
   "status": "proved",
   "theorems": [
    "Netlab.C26_prefix_lists",
    "Netlab.C26_limit_out_of_range",
    "Netlab.C26_limit_accepted",
    "Netlab.C26_empty_list",
    "Netlab.C26_limit_dictionary_left"
   ],
   "note": "A min/max limit specified only for the other address family is left in the entry as a dictionary (C26_limit_dictionary_left)."
  },
  {
   "property": "C27",
   "status": "proved",
   "theorems": [
    "Netlab.C27_aspath_numbers",
    "Netlab.C27_expanded_iff_regexp",
    "Netlab.C27_community_values"
   ],
   "note": ""
  },
  {
   "property": "C28",
   "status": "proved",
   "theorems": [
    "Netlab.C28_includes_expanded",
    "Netlab.C28_loop_reported",
    "Netlab.C28_missing_reported",
    "Netlab.C28_depth_19_accepted",
    "Netlab.C28_included_nexthop",
    "Netlab.C28_depth_20_rejected"
   ],
   "note": "Nesting of 20 or more levels is rejected (C28_depth_20_rejected)."
  },
  {
   "property": "C29",
   "status": "proved",
   "theorems": [
    "Netlab.C29_link_settings",
    "Netlab.C29_enabled_iff",
    "Netlab.C29_link_off",
    "Netlab.C29_checked",
    "Netlab.C29_interface_request",
    "Netlab.C29_interfaces_of_enabled_link",
    "Netlab.C29_gateway_address",
    "Netlab.C29_gateway_on_broadcast_address",
    "Netlab.C29_gateway_id_not_node_id",
    "Netlab.C29_protocol_parameters"
   ],
   "note": "C29_gateway_on_broadcast_address: both exceptional identifiers are accepted without an error."
  },
  {
   "property": "C30",
   "status": "proved",
   "theorems": [
    "Netlab.C30_passive",
    "Netlab.C30_explicit_wins"
   ],
   "note": ""
  },
  {
   "property": "C31",
   "status": "proved",
   "theorems": [
    "Netlab.C31_precedence",
    "Netlab.C31_protocols_agree",
    "Netlab.C31_pool_ids_distinct",
    "Netlab.C31_unique_loop_ends",
    "Netlab.C31_unique_vrf_ids"
   ],
   "note": ""
  },
  {
   "property": "C32",
   "status": "proved",
   "theorems": [
    "Netlab.C32_accepted_iff",
    "Netlab.C32_string_in_range",
    "Netlab.C32_canonical",
    "Netlab.C32_injective",
    "Netlab.C32_complete",
    "Netlab.C32_integers",
    "Netlab.C32_zero_accepted",
    "Netlab.C32_other_values"
   ],
   "note": "C32_accepted_iff covers all (ASCII) strings; defect recorded: the integer 0 is accepted (C32_zero_accepted) and a plain number above 65535 written as a string is rejected."
  },
  {
   "property": "C33",
   "status": "proved",
   "theorems": [
    "Netlab.C33_integers",
    "Netlab.C33_accepted_in_range",
    "Netlab.C33_strings",
    "Netlab.C33_string_out_of_range",
    "Netlab.C33_bool_rejected"
   ],
   "note": "C33_string_out_of_range: for every upper limit there is a numeric string beyond that limit that is accepted."
  },
  {
   "property": "C34",
   "status": "proved",
   "theorems": [
    "Netlab.C34_unknown_reported",
    "Netlab.C34_valid_has_no_unknown",
    "Netlab.C34_succeeds_only_if",
    "Netlab.C34_no_false_alarm",
    "Netlab.C34_false_removed",
    "Netlab.C34_alternative_accepted",
    "Netlab.C34_single_value",
    "Netlab.C34_false_empty",
    "Netlab.C34_type_options",
    "Netlab.C34_module_false"
   ],
   "note": "C34_unknown_reported covers unknown attributes at any depth; definitions of nested values have to come from one namespace. C34_no_false_alarm is the other direction for unrestricted attributes."
  },
  {
   "property": "C35",
   "status": "proved",
   "theorems": [
    "Netlab.C35_every_string",
    "Netlab.C35_members",
    "Netlab.C35_errors",
    "Netlab.C35_once",
    "Netlab.C35_order",
    "Netlab.C35_prune",
    "Netlab.C35_duplicate_node"
   ],
   "note": "fnmatch is a parameter of the model. C35_duplicate_node: a node reached in two ways is listed twice."
  },
  {
   "property": "C36",
   "status": "proved",
   "theorems": [
    "Netlab.C36_down_race",
    "Netlab.C36_dry_run_down_forgets",
    "Netlab.C36_crash_mid_write",
    "Netlab.C36_unlocked_read",
    "Netlab.C36_owner_kept",
    "Netlab.C36_one_directory",
    "Netlab.C36_removed_by_owner"
   ],
   "note": "Transition system with five-step status file updates, arbitrary interleavings and crashes. C36_owner_kept and C36_one_directory hold for all histories without removal of the instance, C36_removed_by_owner for all histories in which commands on the instance do not overlap. Defects proved with concrete histories: C36_down_race (netlab down removes an instance started by another directory after its check), C36_dry_run_down_forgets (netlab down --dry-run removes the status entry of a running lab), C36_crash_mid_write (a crash between truncation and write forgets all instances), C36_unlocked_read (netlab down reads the status file without a lock)."
  },
  {
   "property": "C37",
   "status": "proved",
   "theorems": [
    "Netlab.C37_started_lab_is_locked",
    "Netlab.C37_files_protected",
    "Netlab.C37_concurrent_up",
    "Netlab.C37_concurrent_down",
    "Netlab.C37_abort_unlocks"
   ],
   "note": "Invariant over all histories with crashes. Exceptions proved with concrete histories: C37_concurrent_up, C37_concurrent_down (commands overlapping in a directory), C37_abort_unlocks (answering no to the external provider prompt of netlab up --snapshot unlocks a started lab). recreate_secondary_config, which rewrites the secondary provider file during lab start, is not modelled."
  },
  {
   "property": "C38",
   "status": "proved",
   "theorems": [
    "Netlab.C38_attempts",
    "Netlab.C38_test_result",
    "Netlab.C38_terminates",
    "Netlab.C38_exit_code",
    "Netlab.C38_all_tests",
    "Netlab.C38_summary",
    "Netlab.C38_skipped",
    "Netlab.C38_suzieq_any",
    "Netlab.C38_exec_failure_lost",
    "Netlab.C38_suzieq_error_passes"
   ],
   "note": "Device responses and clock readings are an arbitrary sequence. Statement refined to what holds: a mandatory (stop_on_error) test of level warning also yields exit code 1; the exit code theorem assumes that SuzieQ tests with a validation expression ask for all records to be valid, the attempt theorem assumes that a failed exec command also fails its check. Negations proved without these assumptions: C38_suzieq_any (exit code 1 although all tests passed), C38_exec_failure_lost (a failing exec command is ignored when the test has a wait time and no validation expression), C38_suzieq_error_passes (a failed SuzieQ command passes a test that expects data)."
  },
  {
   "property": "C39",
   "status": "proved",
   "theorems": [
    "Netlab.C39_nodes",
    "Netlab.C39_node_limit",
    "Netlab.C39_links",
    "Netlab.C39_groups",
    "Netlab.C39_link_ends",
    "Netlab.C39_terminates",
    "Netlab.C39_recursive_component",
    "Netlab.C39_dangling_link"
   ],
   "note": "Findings: recursive components are not detected (C39_recursive_component: a component including itself never stops expanding; the code ends in a Python RecursionError), and a component link attached to a nested component is expanded into a link to a nonexistent node without an error at this stage (C39_dangling_link). Name clashes are errors, so the statement is about expansions without errors; C39_terminates has no such hypothesis."
  },
  {
   "property": "C40",
   "status": "proved",
   "theorems": [
    "Netlab.C40_nodes",
    "Netlab.C40_links",
    "Netlab.C40_groups",
    "Netlab.C40_shared_group",
    "Netlab.C40_same_names",
    "Netlab.C40_params",
    "Netlab.C40_node_params",
    "Netlab.C40_group_params",
    "Netlab.C40_expand"
   ],
   "note": "Node name formatting (Python f-string evaluation) is a parameter. Exceptions, proved: leafs and spines in the same group leave only the spines in the group (C40_shared_group); the same names for leafs and spines give fewer nodes and one-ended links without an error (C40_same_names)."
  },
  {
   "property": "C41",
   "status": "proved",
   "theorems": [
    "Netlab.C41_links",
    "Netlab.C41_no_links_left",
    "Netlab.C41_names",
    "Netlab.C41_nodes",
    "Netlab.C41_groups",
    "Netlab.C41_lag_link_lost",
    "Netlab.C41_truncated_names"
   ],
   "note": "About clone_node for one node. Links are in the normalized form (C58). Exceptions, proved: cloning one of two switches in a link aggregation group drops the members connected to the other switch (C41_lag_link_lost; in C41_links a cloned group has only members attached to the node); the default name pattern truncates names to 13 characters, so clones of two nodes may be merged into one node without an error (C41_truncated_names)."
  },
  {
   "property": "C42",
   "status": "proved",
   "theorems": [
    "Netlab.C42_pairs",
    "Netlab.C42_two_peers",
    "Netlab.C42_pool",
    "Netlab.C42_pool_distinct",
    "Netlab.C42_loopback",
    "Netlab.C42_backup",
    "Netlab.C42_same_mac",
    "Netlab.C42_different_mac",
    "Netlab.C42_user_mac",
    "Netlab.C42_mac_wraps"
   ],
   "note": "All cases of peer addresses, backup addresses and MAC addresses. C42_two_peers: a switch with two peer links is accepted and its peers are not symmetrical. C42_mac_wraps: peer group identifiers have no upper limit, the MAC address uses them modulo 65536."
  },
  {
   "property": "C43",
   "status": "proved",
   "theorems": [
    "Netlab.C43_terminates",
    "Netlab.C43_closest_ancestor_wins",
    "Netlab.C43_template_not_inherited",
    "Netlab.C43_loop_not_reported"
   ],
   "note": "Termination for all tables including loops; precedence along the chain of ancestors for tables without loops; a loop is silently broken (C43_loop_not_reported)."
  },
  {
   "property": "C44",
   "status": "proved",
   "theorems": [
    "Netlab.C44_first",
    "Netlab.C44_search_path",
    "Netlab.C44_find_in_search_path",
    "Netlab.C44_entries",
    "Netlab.C44_default_order",
    "Netlab.C44_package_topology_path_lost"
   ],
   "note": "The operating system and the pathlib functions are parameters of the model. Defect proved: C44_package_topology_path_lost."
  },
  {
   "property": "C45",
   "status": "proved",
   "theorems": [
    "Netlab.C45_link_state",
    "Netlab.C45_node",
    "Netlab.C45_multiprotocol",
    "Netlab.C45_no_module_not_disabled",
    "Netlab.C45_false_families_enable"
   ],
   "note": "Defects proved: C45_no_module_not_disabled (a node without the BFD module keeps BFD on interfaces enabling it explicitly), C45_false_families_enable (`ospf.bfd: {ipv4: false, ipv6: false}` enables BFD)."
  },
  {
   "property": "C46",
   "status": "proved",
   "theorems": [
    "Netlab.C46_link_addresses",
    "Netlab.C46_vlan_addresses",
    "Netlab.C46_no_repeats",
    "Netlab.C46_only_reserved",
    "Netlab.C46_pools",
    "Netlab.C46_prefix",
    "Netlab.C46_gateway",
    "Netlab.C46_other_access_link"
   ],
   "note": "The five build steps of the DHCP pools are modelled; address parsing (ip) and make_id are parameters. Statement refined: the code excludes addresses of VLAN interfaces and of interfaces on links that themselves have DHCP clients. C46_other_access_link proves that a static host attached to the same VLAN through another access link (without DHCP clients) is not excluded."
  },
  {
   "property": "C47",
   "status": "proved",
   "theorems": [
    "Netlab.C47_no_duplicates",
    "Netlab.C47_in_subnet",
    "Netlab.C47_unique",
    "Netlab.C47_static_kept",
    "Netlab.C47_every_node",
    "Netlab.C47_success",
    "Netlab.C47_broadcast_assigned",
    "Netlab.C47_overflow_reported"
   ],
   "note": "Text formats of addresses are parameters, assumed injective. Static addresses are compared as text. Defect proved: C47_broadcast_assigned (the node with id 155 gets the broadcast address of the default management pool). Node ids are distinct and at most 250 by C02."
  },
  {
   "property": "C48",
   "status": "proved",
   "theorems": [
    "Netlab.C48_first_source_wins",
    "Netlab.C48_no_other_source",
    "Netlab.C48_sources",
    "Netlab.C48_empty_list_ignored",
    "Netlab.C48_environment_set",
    "Netlab.C48_environment_wins",
    "Netlab.C48_environment_lost",
    "Netlab.C48_plugin_defaults"
   ],
   "note": "Topology over files in order, environment over everything when intermediate settings are dictionaries; findings: variable lost below a scalar, explicit empty source list ignored."
  },
  {
   "property": "C49",
   "status": "proved",
   "theorems": [
    "Netlab.C49_primary",
    "Netlab.C49_nodes_unchanged",
    "Netlab.C49_mark",
    "Netlab.C49_select"
   ],
   "note": ""
  },
  {
   "property": "C50",
   "status": "proved",
   "theorems": [
    "Netlab.C50_participants",
    "Netlab.C50_flood_list",
    "Netlab.C50_node_list",
    "Netlab.C50_disabled_vlan_flooded"
   ],
   "note": "Exact membership, no duplicates, own VTEP never listed, sorted node-level union, nodes with other flooding unchanged. Defect proved as C50_disabled_vlan_flooded: a VLAN excluded with `vni: false` gets a flooding list too, made of the nodes that exclude any VLAN."
  },
  {
   "property": "C51",
   "status": "proved",
   "theorems": [
    "Netlab.C51_duplicate_check_exact"
   ],
   "note": ""
  },
  {
   "property": "C52",
   "status": "proved",
   "theorems": [
    "Netlab.C52_effective_mtu",
    "Netlab.C52_system_mtu_not_repeated"
   ],
   "note": ""
  },
  {
   "property": "C53",
   "status": "proved",
   "theorems": [
    "Netlab.C53_bridge_names_unique",
    "Netlab.C53_bridge_name_length",
    "Netlab.C53_generated_name_too_long"
   ],
   "note": "C53_generated_name_too_long: generated names exceed the limit from link index 10000 on."
  },
  {
   "property": "C54",
   "status": "proved",
   "theorems": [
    "Netlab.C54_consistent_order",
    "Netlab.C54_error_iff_contradiction"
   ],
   "note": "Node config lists are assumed to have no duplicates."
  },
  {
   "property": "C55",
   "status": "proved",
   "theorems": [
    "Netlab.C55_rr_cluster_ids",
    "Netlab.C55_lowest_is_textual"
   ],
   "note": "Router IDs are compared as text (C55_lowest_is_textual)."
  },
  {
   "property": "C56",
   "status": "proved",
   "theorems": [
    "Netlab.C56_global_interfaces",
    "Netlab.C56_vrf_instances",
    "Netlab.C56_address_families",
    "Netlab.C56_removed_iff"
   ],
   "note": ""
  },
  {
   "property": "C57",
   "status": "proved",
   "theorems": [
    "Netlab.C57_required_reported",
    "Netlab.C57_conflict_reported",
    "Netlab.C57_conflict_in_value_reported",
    "Netlab.C57_module_reported"
   ],
   "note": ""
  },
  {
   "property": "C58",
   "status": "proved",
   "theorems": [
    "Netlab.C58_all_links",
    "Netlab.C58_known_nodes",
    "Netlab.C58_prefix_accepted",
    "Netlab.C58_syntaxes",
    "Netlab.C58_names"
   ],
   "note": "Finding: a mistyped node name in a link string is accepted when it starts with the name of a node (C58_prefix_accepted); the link is then attached to a node that does not exist."
  },
  {
   "property": "C59",
   "status": "proved",
   "theorems": [
    "Netlab.C59_sides",
    "Netlab.C59_unsupported_accepted",
    "Netlab.C59_mlag_accepted",
    "Netlab.C59_interfaces",
    "Netlab.C59_mlag_side",
    "Netlab.C59_unique",
    "Netlab.C59_member_number_collision",
    "Netlab.C59_mlag_same",
    "Netlab.C59_mlag_mismatch",
    "Netlab.C59_requested",
    "Netlab.C59_members",
    "Netlab.C59_nonmembers",
    "Netlab.C59_member_captured",
    "Netlab.C59_supported",
    "Netlab.C59_lag_between_peers"
   ],
   "note": "Defects proved: C59_unsupported_accepted (1:3 LAG and a triangle are accepted), C59_member_number_collision (numbers set on members are not remembered), C59_mlag_mismatch (MLAG peers with different numbers), C59_member_captured (a member of one LAG ends in another LAG when the number of the LAG is equal to the index of a later LAG link), C59_lag_between_peers (a LAG between two MLAG peers with members listing the nodes in different order has both nodes on both sides)."
  },
  {
   "property": "C60",
   "status": "proved",
   "theorems": [
    "Netlab.C60_has_nexthop",
    "Netlab.C60_node_sound",
    "Netlab.C60_node_complete",
    "Netlab.C60_node_remote",
    "Netlab.C60_addr_sound",
    "Netlab.C60_no_crash",
    "Netlab.C60_covered",
    "Netlab.C60_vrf",
    "Netlab.C60_gateway_sound",
    "Netlab.C60_gateway_stable",
    "Netlab.C60_ipv6_route_lost",
    "Netlab.C60_crash",
    "Netlab.C60_not_an_address"
   ],
   "note": "Defects proved: C60_ipv6_route_lost (dual-stack route with one directly connected and one remote next-hop address loses a prefix), C60_crash (dual-stack prefix with a single next-hop address raises an exception), C60_not_an_address (the next hop through a remote unnumbered host is the value True)."
  },
  {
   "property": "C61",
   "status": "proved",
   "theorems": [
    "Netlab.C61_default_routes",
    "Netlab.C61_no_errors",
    "Netlab.C61_host_routes",
    "Netlab.C61_no_repeats",
    "Netlab.C61_duplicate_and_ignored"
   ],
   "note": "C61_duplicate_and_ignored: user-defined dual-stack entries are duplicated, entries with pool/prefix/node are ignored. The search for DHCP clients is not modelled."
  },
  {
   "property": "C62",
   "status": "proved",
   "theorems": [
    "Netlab.C62_defined",
    "Netlab.C62_no_mix",
    "Netlab.C62_native_on_trunk",
    "Netlab.C62_one_access",
    "Netlab.C62_native_in_trunk",
    "Netlab.C62_native_agreed",
    "Netlab.C62_trunk_peers",
    "Netlab.C62_trunk_everywhere",
    "Netlab.C62_access_accepted",
    "Netlab.C62_trunk_accepted",
    "Netlab.C62_two_natives",
    "Netlab.C62_local_names",
    "Netlab.C62_native_unchecked"
   ],
   "note": "Defects proved about the model: two native VLANs on a link are accepted (C62_two_natives) and same-named VLANs of two nodes are trunked (C62_local_names) because the checks in netsim/modules/vlan.py:263-287 are never reached; the native VLAN check skips interfaces without VLAN attributes (C62_native_unchecked). That's why the statement is limited to interfaces with VLAN attributes and to links with a single native VLAN."
  },
  {
   "property": "C63",
   "status": "proved",
   "theorems": [
    "Netlab.C63_mode",
    "Netlab.C63_routed",
    "Netlab.C63_one_subnet",
    "Netlab.C63_members",
    "Netlab.C63_member_ifs"
   ],
   "note": "The choice of an element of a Python set (list(set)[0]) is a parameter `pick` of the model. C63_members assumes that native VLANs on the link do not differ (C62_two_natives shows they can)."
  },
  {
   "property": "C64",
   "status": "proved",
   "theorems": [
    "Netlab.C64_one_svi",
    "Netlab.C64_interfaces",
    "Netlab.C64_svi_data",
    "Netlab.C64_vlan_data",
    "Netlab.C64_ifindex",
    "Netlab.C64_bridge_groups",
    "Netlab.C64_bridge_address"
   ],
   "note": "For nodes without VLAN interfaces or bridge groups before the process. Defect: a VLAN in bridge mode with an address specified in the VLAN results in a VLAN interface with that address (C64_bridge_address). Assigned prefixes and IP addresses are opaque values."
  },
  {
   "property": "C65",
   "status": "proved",
   "theorems": [
    "Netlab.C65_global",
    "Netlab.C65_local",
    "Netlab.C65_stub",
    "Netlab.C65_attached_twice"
   ],
   "note": "For links where no node is attached twice and unique node names; a node attached twice to a VLAN link is listed twice (C65_attached_twice). Stub role for nodes that are not hosts."
  },
  {
   "property": "C66",
   "status": "proved",
   "theorems": [
    "Netlab.C66_interfaces",
    "Netlab.C66_unique_names",
    "Netlab.C66_mixed",
    "Netlab.C66_native_trunk",
    "Netlab.C66_supported"
   ],
   "note": "Model of map_trunk_vlans, rename_vlan_subinterfaces (node-local part; neighbor renaming not modelled), cleanup_routed_native_vlan, check_mixed_trunks and check_mixed_native_trunk. Input conditions: unique interface indices, parent links attached to ordinary interfaces, loopback flag set on parentless member interfaces (all established by earlier steps). Name uniqueness needs a template containing the parent name and the number or the VLAN ID; all shipped device templates do."
  },
  {
   "property": "C67",
   "status": "proved",
   "theorems": [
    "Netlab.C67_ldp_interfaces",
    "Netlab.C67_ldp_true_crashes",
    "Netlab.C67_ldp_false_ignored",
    "Netlab.C67_ldp_needs_ipv4",
    "Netlab.C67_ldp_support_not_checked",
    "Netlab.C67_bgp_neighbors",
    "Netlab.C67_vpn_on_ebgp_session",
    "Netlab.C67_6pe_symmetric",
    "Netlab.C67_disabled_af_disables_all",
    "Netlab.C67_supported",
    "Netlab.C67_6pe_needs_lu_support",
    "Netlab.C67_6pe_types_not_checked",
    "Netlab.C67_accepted",
    "Netlab.C67_no_ldp"
   ],
   "note": "C67_ldp_interfaces, C67_bgp_neighbors, C67_6pe_symmetric and C67_supported are the claims, and C67_accepted shows which settings are accepted; the settings must not contain empty lists or disabled address families. Findings: C67_disabled_af_disables_all (`False` for one address family, documented, silently disables the feature for all of them), C67_ldp_true_crashes (`mpls.ldp: True` on an interface crashes), C67_ldp_false_ignored (`mpls.ldp: False` on an interface has no effect), C67_ldp_support_not_checked (device support for LDP is not checked), C67_vpn_on_ebgp_session (VPN address families on EBGP sessions, contrary to documentation), C67_6pe_needs_lu_support and C67_6pe_types_not_checked (6PE validation looks at the BGP-LU setting)."
  },
  {
   "property": "C68",
   "status": "proved",
   "theorems": [
    "Netlab.C68_session_attributes",
    "Netlab.C68_local_as_sessions"
   ],
   "note": "C68_session_attributes; it holds with route servers too. Finding: C68_local_as_sessions (IBGP sessions created with local_as get neither IBGP nor EBGP attributes and keep the attributes copied from the other end of the link)."
  },
  {
   "property": "C69",
   "status": "proved",
   "theorems": [
    "Netlab.C69_route_servers",
    "Netlab.C69_interface_rs_depends_on_order",
    "Netlab.C69_removed_on_one_side"
   ],
   "note": "C69_route_servers, for route servers set with node attributes. Findings: C69_interface_rs_depends_on_order (with `bgp.rs` set on an interface, as documented, the session between a route server and its client is removed on both nodes when the route server is listed before the client), C69_removed_on_one_side (a session is removed on one of its nodes only when the route server is in the same AS as the other node)."
  },
  {
   "property": "C70",
   "status": "proved",
   "theorems": [
    "Netlab.C70_accepted_iff",
    "Netlab.C70_as_numbers"
   ],
   "note": "C70_accepted_iff and C70_as_numbers. A node in the global list of route reflectors is one even when its own attribute says otherwise."
  },
  {
   "property": "C71",
   "status": "proved",
   "theorems": [
    "Netlab.C71_link_roles",
    "Netlab.C71_vlan_roles",
    "Netlab.C71_no_role",
    "Netlab.C71_node_vlan_has_no_role"
   ],
   "note": "C71_link_roles, C71_vlan_roles and C71_no_role. Defect: C71_node_vlan_has_no_role (a VLAN defined in nodes never gets the role, although it connects two autonomous systems)."
  },
  {
   "property": "C72",
   "status": "proved",
   "theorems": [
    "Netlab.C72_advertised_prefixes",
    "Netlab.C72_address_families",
    "Netlab.C72_activation",
    "Netlab.C72_originated",
    "Netlab.C72_localas_ibgp_not_active"
   ],
   "note": "C72_advertised_prefixes, C72_address_families, C72_activation and C72_originated. Defect: C72_localas_ibgp_not_active (the code that makes IBGP imply IBGP built with local AS looks in the wrong dictionary, so these sessions are not active when bgp.activate is used)."
  },
  {
   "property": "C73",
   "status": "proved",
   "theorems": [
    "Netlab.C73_communities",
    "Netlab.C73_accepted_iff",
    "Netlab.C73_unsupported_keyword_accepted"
   ],
   "note": "C73_communities and C73_accepted_iff. Defect: C73_unsupported_keyword_accepted (a keyword the device marks as not supported is accepted and the community is silently not propagated)."
  },
  {
   "property": "C74",
   "status": "proved",
   "theorems": [
    "Netlab.C74_services",
    "Netlab.C74_targets_differ",
    "Netlab.C74_configured_evi_may_clash"
   ],
   "note": "C74_services and C74_targets_differ. Names of VLANs and VRFs are keys of dictionaries, so they do not repeat. Defect: C74_configured_evi_may_clash (a configured EVPN instance equal to the id of another VLAN merges the two services without an error)."
  },
  {
   "property": "C75",
   "status": "proved",
   "theorems": [
    "Netlab.C75_neighbors",
    "Netlab.C75_symmetric",
    "Netlab.C75_lists",
    "Netlab.C75_route_distinguishers",
    "Netlab.C75_distinguishers_differ",
    "Netlab.C75_accepted_iff",
    "Netlab.C75_irb",
    "Netlab.C75_vlan_and_vrf_share_rd",
    "Netlab.C75_rejected_due_to_other_vrf"
   ],
   "note": "C75_neighbors, C75_symmetric, C75_lists, C75_route_distinguishers, C75_distinguishers_differ, C75_accepted_iff and C75_irb. Defects: C75_vlan_and_vrf_share_rd (a VLAN and a VRF with equal EVPN instances share the route distinguisher) and C75_rejected_due_to_other_vrf (the VRF of a VLAN is compared with a substring test, so a node is rejected because of VLANs of other VRFs)."
  },
  {
   "property": "C76",
   "status": "proved",
   "theorems": [
    "Netlab.C76_sessions",
    "Netlab.C76_later_links_not_found",
    "Netlab.C76_nodes",
    "Netlab.C76_accepted_iff",
    "Netlab.C76_missing_loopbacks_accepted",
    "Netlab.C76_ipv6_list_wins"
   ],
   "note": "C76_sessions, C76_nodes and C76_accepted_iff. Defects: C76_later_links_not_found (all sessions get the same link index, and links added later are not at the position given by their index), C76_missing_loopbacks_accepted (a session between two VRFs without loopbacks is accepted with global addresses and no source), C76_ipv6_list_wins (on dual-stack sessions the list for IPv6 sessions replaces the one for IPv4 sessions)."
  },
  {
   "property": "C77",
   "status": "proved",
   "theorems": [
    "Netlab.C77_reference_lists"
   ],
   "note": "C77_reference_lists."
  },
  {
   "property": "C78",
   "status": "proved",
   "theorems": [
    "Netlab.C78_neighbors",
    "Netlab.C78_user_policies",
    "Netlab.C78_accepted_iff",
    "Netlab.C78_zero_ignored",
    "Netlab.C78_localas_ibgp_keeps_attributes",
    "Netlab.C78_order_of_interfaces",
    "Netlab.C78_same_name_replaced"
   ],
   "note": "Defects proved: attributes with the value zero (allowed by attribute definitions) are ignored (C78_zero_ignored); localas_ibgp neighbors keep the policy attributes of the remote end (C78_localas_ibgp_keeps_attributes); without the routing module, acceptance depends on the order of interfaces (C78_order_of_interfaces); a generated route map replaces the user's routing policy with the same bp- name (C78_same_name_replaced). Support checks of the device and of the routing module are parameters."
  },
  {
   "property": "C79",
   "status": "proved",
   "theorems": [
    "Netlab.C79_normalized",
    "Netlab.C79_normalization_fails_iff",
    "Netlab.C79_empty_set_crashes",
    "Netlab.C79_device_support_iff",
    "Netlab.C79_accepted",
    "Netlab.C79_accepted_iff",
    "Netlab.C79_missing_policy_crashes",
    "Netlab.C79_global_community_crashes"
   ],
   "note": "Defects proved: an empty set in an entry with a shortcut crashes (C79_empty_set_crashes); a policy without entries that is not a global policy crashes instead of being reported (C79_missing_policy_crashes); a policy using a global community list crashes, because the list is expanded before it is imported again (C79_global_community_crashes)."
  },
  {
   "property": "C80",
   "status": "proved",
   "theorems": [
    "Netlab.C80_created",
    "Netlab.C80_precheck_iff",
    "Netlab.C80_names_differ",
    "Netlab.C80_accepted_iff",
    "Netlab.C80_members",
    "Netlab.C80_as_accepted_iff",
    "Netlab.C80_as_groups",
    "Netlab.C80_default_members_lost",
    "Netlab.C80_node_group_clash"
   ],
   "note": "Defects proved: members of a default group are lost when the topology defines the same group without members, contrary to the documentation (C80_default_members_lost); a group listed in a node can have the name of another node (C80_node_group_clash). Validation of group attributes is not modelled."
  },
  {
   "property": "C81",
   "status": "proved",
   "theorems": [
    "Netlab.C81_default_type",
    "Netlab.C81_type_kept",
    "Netlab.C81_type_overridden",
    "Netlab.C81_default_accepted",
    "Netlab.C81_role",
    "Netlab.C81_accepted",
    "Netlab.C81_group_links",
    "Netlab.C81_groups_accepted_iff",
    "Netlab.C81_disabled_member_kept",
    "Netlab.C81_nested_group_lost",
    "Netlab.C81_group_nodes_lost",
    "Netlab.C81_member_crash"
   ],
   "note": "Defects proved: stub_loopback overrides the link type set by the user (C81_type_overridden), disable does not remove a member of a group link (C81_disabled_member_kept), a group link in a group link and nodes specified in a group link disappear without an error (C81_nested_group_lost, C81_group_nodes_lost), a member that is not a link crashes (C81_member_crash)."
  },
  {
   "property": "C82",
   "status": "proved",
   "theorems": [
    "Netlab.C82_removed",
    "Netlab.C82_accepted_iff",
    "Netlab.C82_indices",
    "Netlab.C82_families",
    "Netlab.C82_loopbacks",
    "Netlab.C82_no_loopbacks",
    "Netlab.C82_pool_addresses",
    "Netlab.C82_route_leaking",
    "Netlab.C82_vpn_families",
    "Netlab.C82_loopback_no_vpn",
    "Netlab.C82_loopback_lost",
    "Netlab.C82_false_loopback"
   ],
   "note": "Defects proved: a VRF with an IPv4 loopback and no other interfaces does not enable VPNv4 on the node (C82_loopback_no_vpn); a requested loopback is not created, without an error, when the pool has no addresses (C82_loopback_lost); loopback: False in a VRF keeps the VRF module (C82_false_loopback)."
  },
  {
   "property": "C83",
   "status": "proved",
   "theorems": [
    "Netlab.C83_accepted_iff",
    "Netlab.C83_imports",
    "Netlab.C83_node_accepted_iff",
    "Netlab.C83_node",
    "Netlab.C83_removed",
    "Netlab.C83_removed_iff",
    "Netlab.C83_default_routes",
    "Netlab.C83_disabled_rejected",
    "Netlab.C83_vrf_import_crash",
    "Netlab.C83_auto_unsupported",
    "Netlab.C83_rip_kept",
    "Netlab.C83_removal_crash"
   ],
   "note": "Proved with the exact conditions. Code defects: a request to disable an import from a source the device does not support is rejected (C83_disabled_rejected); an explicit VRF import on a device that cannot import routes in VRFs crashes, the error message uses an unset variable (C83_vrf_import_crash); automatic VRF imports are not limited to supported sources (C83_auto_unsupported); automatic imports of RIP routes are never removed because they are stored as `rip` and looked for as `ripv2` (C83_rip_kept); the removal crashes when the importing protocol was not processed yet (C83_removal_crash)."
  },
  {
   "property": "C84",
   "status": "proved",
   "theorems": [
    "Netlab.C84_definitions",
    "Netlab.C84_accepted_iff",
    "Netlab.C84_generators",
    "Netlab.C84_named_disjoint",
    "Netlab.C84_named_static",
    "Netlab.C84_named_stable",
    "Netlab.C84_prefix6_unchecked",
    "Netlab.C84_numbered_removed",
    "Netlab.C84_mgmt_unchecked",
    "Netlab.C84_static_overridden"
   ],
   "note": "Defects: prefix6 shorter than the IPv6 pool prefix is accepted (unusable pool, or a crash for the loopback pool; C84_prefix6_unchecked), unnumbered: False removes all prefixes of a pool (C84_numbered_removed), the prefix length of the management pool is not checked (C84_mgmt_unchecked), static prefixes of a named prefix are overridden by pool prefixes (C84_static_overridden). MAC prefixes and evaluation of shared defaults are not modelled."
  },
  {
   "property": "C85",
   "status": "proved",
   "theorems": [
    "Netlab.C85_nodes",
    "Netlab.C85_links",
    "Netlab.C85_complete",
    "Netlab.C85_identity",
    "Netlab.C85_idempotent",
    "Netlab.C85_no_errors",
    "Netlab.C85_ghost_link",
    "Netlab.C85_virtual_link"
   ],
   "note": "Defects: a link of unmanaged devices with a changed number of nodes stays without interfaces (C85_ghost_link); a virtual link losing a node becomes a physical stub link with a bridge (C85_virtual_link). Neighbor lists of interfaces still mention unmanaged devices; they are not modelled."
  },
  {
   "property": "C86",
   "status": "proved",
   "theorems": [
    "Netlab.C86_accepted_iff",
    "Netlab.C86_interfaces",
    "Netlab.C86_effective_mtu",
    "Netlab.C86_daemon_config",
    "Netlab.C86_limits"
   ],
   "note": "Interfaces without a name are a fatal error and are not modelled; the order of configuration templates is C54."
  },
  {
   "property": "C87",
   "status": "proved",
   "theorems": [
    "Netlab.C87_link_clients",
    "Netlab.C87_link_modules",
    "Netlab.C87_link_subnet",
    "Netlab.C87_link_accepted_iff",
    "Netlab.C87_vlan_client_ignored",
    "Netlab.C87_order",
    "Netlab.C87_accepted_iff",
    "Netlab.C87_result",
    "Netlab.C87_unnumbered_server",
    "Netlab.C87_relay_errors"
   ],
   "note": "Defects proved: C87_vlan_client_ignored, C87_unnumbered_server, C87_relay_errors. A missing relay feature is one error (the code reports more). Pools of DHCP servers are in C46."
  },
  {
   "property": "C88",
   "status": "proved",
   "theorems": [
    "Netlab.C88_crash_iff",
    "Netlab.C88_accepted_iff",
    "Netlab.C88_sessions",
    "Netlab.C88_symmetric",
    "Netlab.C88_localas_kept",
    "Netlab.C88_colon_crash"
   ],
   "note": "Defects proved: C88_colon_crash, C88_localas_kept. Neighbors in VRFs are not touched by the plugin and not modelled."
  },
  {
   "property": "C89",
   "status": "proved",
   "theorems": [
    "Netlab.C89_frr_present",
    "Netlab.C89_frr_missing_sound",
    "Netlab.C89_frr_missing_single",
    "Netlab.C89_frr_community",
    "Netlab.C89_frr_community_missing",
    "Netlab.C89_eos_present",
    "Netlab.C89_eos_missing_sound",
    "Netlab.C89_eos_community",
    "Netlab.C89_missing_two",
    "Netlab.C89_community_skips",
    "Netlab.C89_community_substring",
    "Netlab.C89_community_paths",
    "Netlab.C89_eos_vrf"
   ],
   "note": "C89_frr_present, C89_eos_present, C89_frr_missing_sound, C89_eos_missing_sound, C89_frr_missing_single, C89_frr_community, C89_frr_community_missing and C89_eos_community characterise the outcome. Defects proved: C89_missing_two (absence tests with two attributes), C89_community_skips, C89_community_substring, C89_community_paths, C89_eos_vrf. The text returned by the device is parsed into the model's path records outside the model."
  },
  {
   "property": "C90",
   "status": "proved",
   "theorems": [
    "Netlab.C90_unique",
    "Netlab.C90_result",
    "Netlab.C90_disabled",
    "Netlab.C90_accepted_iff",
    "Netlab.C90_vlan_crash"
   ],
   "note": "C90_result with C90_unique (the inherited port type is unambiguous), C90_accepted_iff (references to nodes and VLANs are valid), C90_disabled. Defect proved: C90_vlan_crash (an access VLAN that is not a VLAN of the node)."
  },
  {
   "property": "C91",
   "status": "proved",
   "theorems": [
    "Netlab.C91_dict",
    "Netlab.C91_dict_rejected",
    "Netlab.C91_box",
    "Netlab.C91_list",
    "Netlab.C91_round_trip",
    "Netlab.C91_extra",
    "Netlab.C91_crash_iff",
    "Netlab.C91_common_prefix",
    "Netlab.C91_other",
    "Netlab.C91_no_templates",
    "Netlab.C91_bind_lost"
   ],
   "note": "C91_dict, C91_box (the hierarchy created from names), C91_dict_rejected, C91_list, C91_round_trip, C91_extra (host files are different and outside the node folder), C91_crash_iff. Defects proved: C91_common_prefix, C91_bind_lost."
  },
  {
   "property": "C92",
   "status": "proved",
   "theorems": [
    "Netlab.C92_ports",
    "Netlab.C92_host_ports",
    "Netlab.C92_mgmt_iff",
    "Netlab.C92_mgmt_crash",
    "Netlab.C92_port_collision"
   ],
   "note": "C92_ports, C92_host_ports, C92_mgmt_iff, C92_mgmt_crash (an address and a pool prefix of different address families raise an exception). Defect proved: C92_port_collision. Parsing of addresses is not modelled."
  },
  {
   "property": "C93",
   "status": "proved",
   "theorems": [
    "Netlab.C93_pad",
    "Netlab.C93_batches",
    "Netlab.C93_tunnel",
    "Netlab.C93_no_tunnel",
    "Netlab.C93_lan_bridge",
    "Netlab.C93_empty_batch",
    "Netlab.C93_bridge_one_end"
   ],
   "note": "C93_pad needs distinct interface indexes not lower than the first index of the device. Defects proved: a point-to-point link with a bridge name gives the name to one of its ends only (C93_bridge_one_end); an empty batch starts all machines (C93_empty_batch)."
  },
  {
   "property": "C94",
   "status": "proved",
   "theorems": [
    "Netlab.C94_accepted",
    "Netlab.C94_secondary",
    "Netlab.C94_no_spurious",
    "Netlab.C94_names",
    "Netlab.C94_daemon",
    "Netlab.C94_attributes",
    "Netlab.C94_device_provider",
    "Netlab.C94_provider_replaced"
   ],
   "note": "Provider names must differ from node attributes changed in this step (ProviderNames). Defects proved: a provider requested by the device is not added to the secondary providers (C94_device_provider), and silently replaces the provider specified in the node without being checked (C94_provider_replaced)."
  },
  {
   "property": "C95",
   "status": "proved",
   "theorems": [
    "Netlab.C95_unique",
    "Netlab.C95_not_in_earlier",
    "Netlab.C95_static",
    "Netlab.C95_assigned",
    "Netlab.C95_checked",
    "Netlab.C95_pool_attribute",
    "Netlab.C95_ipv4_subnet"
   ],
   "note": "Loopback interfaces are modelled on top of the pool allocator, including pool attributes and checks of addresses. Two defects are proved: attributes of the loopback pool become loopback attributes and address families of the node (C95_pool_attribute); loopbacks cannot be allocated from an IPv4 pool with prefixes shorter than /31, because the network address is used (C95_ipv4_subnet). Interface names and indexes are not modelled."
  },
  {
   "property": "C96",
   "status": "proved",
   "theorems": [
    "Netlab.C96_ipv4_text",
    "Netlab.C96_prefix_length",
    "Netlab.C96_ipv4",
    "Netlab.C96_id",
    "Netlab.C96_stable",
    "Netlab.C96_ipv6",
    "Netlab.C96_named",
    "Netlab.C96_bool",
    "Netlab.C96_reference",
    "Netlab.C96_mac",
    "Netlab.C96_rd",
    "Netlab.C96_rd_parts",
    "Netlab.C96_net",
    "Netlab.C96_prefix_str",
    "Netlab.C96_prefix_without_length",
    "Netlab.C96_multicast_subnet",
    "Netlab.C96_empty_net",
    "Netlab.C96_strange_rd"
   ],
   "note": "The IPv4 address parser of the Python library is modelled for ASCII text; IPv6, network mask and MAC parsers are parameters. Four defects are proved: texts without a prefix length are accepted as prefixes, although the table in the code says they are not (C96_prefix_without_length); multicast prefixes are accepted on subnets, although the comment says they are not (C96_multicast_subnet); an IS-IS NET consisting of dots is accepted (C96_empty_net); booleans and negative numbers are accepted as route distinguishers (C96_strange_rd). Error messages are not modelled."
  },
  {
   "property": "C97",
   "status": "proved",
   "theorems": [
    "Netlab.C97_ospf_unnumbered",
    "Netlab.C97_isis_unnumbered",
    "Netlab.C97_isis_instances",
    "Netlab.C97_strict_bfd",
    "Netlab.C97_vrf_copy",
    "Netlab.C97_loopback_area",
    "Netlab.C97_rip_timers",
    "Netlab.C97_rip_instances",
    "Netlab.C97_vrf_protocol",
    "Netlab.C97_intf_params",
    "Netlab.C97_router_ids",
    "Netlab.C97_srv6_locators",
    "Netlab.C97_srv6_loopback",
    "Netlab.C97_isis_other_intf",
    "Netlab.C97_vrf_intf_params",
    "Netlab.C97_srv6_contained"
   ],
   "note": "Defects: C97_isis_other_intf (an unnumbered interface that does not run IS-IS makes the IS-IS node unusable), C97_vrf_intf_params (unsupported parameters on VRF interfaces are never reported as igp_interfaces looks for an interface attribute called proto), C97_srv6_contained (a loopback prefix that contains the locator is accepted)."
  },
  {
   "property": "C98",
   "status": "proved",
   "theorems": [
    "Netlab.C98_propagated",
    "Netlab.C98_propagated_attributes",
    "Netlab.C98_neighbor_data",
    "Netlab.C98_addresses",
    "Netlab.C98_bad_addresses",
    "Netlab.C98_parent",
    "Netlab.C98_features",
    "Netlab.C98_node_af",
    "Netlab.C98_ifname",
    "Netlab.C98_interface_name",
    "Netlab.C98_gateway",
    "Netlab.C98_gateway_ready",
    "Netlab.C98_gateway_crash"
   ],
   "note": "Defect: C98_gateway_crash (a link with gateway: True and no global gateway data crashes the transformation; C98_gateway_ready shows that it cannot happen with global gateway data)."
  },
  {
   "property": "C99",
   "status": "proved",
   "theorems": [
    "Netlab.C99_vlan_links",
    "Netlab.C99_every_vlan",
    "Netlab.C99_one_link",
    "Netlab.C99_members_removed",
    "Netlab.C99_access_links",
    "Netlab.C99_attributes",
    "Netlab.C99_copied_attributes",
    "Netlab.C99_renamed",
    "Netlab.C99_internal_attributes",
    "Netlab.C99_node_prefix",
    "Netlab.C99_no_mode"
   ],
   "note": "Defect: C99_node_prefix (the prefix of a VLAN defined on a node is ignored when the VLAN has no links). C99_no_mode: an access interface without a VLAN mode terminates the transformation with an exception."
  },
  {
   "property": "C100",
   "status": "proved",
   "theorems": [
    "Netlab.C100_attribute",
    "Netlab.C100_features",
    "Netlab.C100_daemons",
    "Netlab.C100_daemon_attributes",
    "Netlab.C100_device_features",
    "Netlab.C100_supported_on",
    "Netlab.C100_final",
    "Netlab.C100_false_feature"
   ],
   "note": "Defect: C100_false_feature (a feature that is not a module and is set to false stays in the features of the device, so tests for its presence succeed)."
  },
  {
   "property": "C101",
   "status": "proved",
   "theorems": [
    "Netlab.C101_node_types",
    "Netlab.C101_interface_types",
    "Netlab.C101_search_paths",
    "Netlab.C101_new_search_paths",
    "Netlab.C101_copied",
    "Netlab.C101_copy_errors",
    "Netlab.C101_copy_total",
    "Netlab.C101_chain_order",
    "Netlab.C101_missing_definition"
   ],
   "note": "Proved for data types of nodes and interfaces, copied and merged definitions without chained requests, and search path adjustments at any depth (a prepended path called 'append' is excluded). Defects: the result of chained copy requests depends on the order of namespaces (C101_chain_order), and copying a definition that does not exist in the source namespace results in an empty definition without an error (C101_missing_definition)."
  },
  {
   "property": "C102",
   "status": "proved",
   "theorems": [
    "Netlab.C102_host_vars",
    "Netlab.C102_members",
    "Netlab.C102_device_group",
    "Netlab.C102_host_data",
    "Netlab.C102_children",
    "Netlab.C102_group_vars",
    "Netlab.C102_topology_group_vars",
    "Netlab.C102_split",
    "Netlab.C102_host_files",
    "Netlab.C102_inventory_file",
    "Netlab.C102_addresses",
    "Netlab.C102_loopback_addresses",
    "Netlab.C102_vrf_name_clash",
    "Netlab.C102_reserved_group"
   ],
   "note": "Proved for unique node names and devices that are not called modules, custom_configs or daemons. The variables of 'all' and 'modules' groups are parameters of the model. Defects: addresses of an interface in a VRF are mixed with the addresses of a node called <node>-<vrf> (C102_vrf_name_clash); a topology group called 'modules' extends the group of nodes using modules (C102_reserved_group)."
  },
  {
   "property": "C103",
   "status": "proved",
   "theorems": [
    "Netlab.C103_other_settings",
    "Netlab.C103_accepted",
    "Netlab.C103_errors",
    "Netlab.C103_silent",
    "Netlab.C103_stable",
    "Netlab.C103_list",
    "Netlab.C103_crash",
    "Netlab.C103_unexpected_value"
   ],
   "note": "Defects: C103_crash (unexpected list elements or valid values that are not strings crash the error message code), C103_unexpected_value (an unexpected value is returned to the caller)."
  },
  {
   "property": "C104",
   "status": "proved",
   "theorems": [
    "Netlab.C104_exit_on_error",
    "Netlab.C104_logs_grow",
    "Netlab.C104_warnings_never_abort",
    "Netlab.C104_messages",
    "Netlab.C104_disabled",
    "Netlab.C104_exit_request",
    "Netlab.C104_repeat",
    "Netlab.C104_hint_once",
    "Netlab.C104_disable_hint_once",
    "Netlab.C104_disable_hint_shown",
    "Netlab.C104_static_hint_once",
    "Netlab.C104_repeat_twice",
    "Netlab.C104_lines_counted",
    "Netlab.C104_quiet_hint",
    "Netlab.C104_init_keeps_warnings"
   ],
   "note": "Defects: C104_repeat_twice (repeated warnings are logged again), C104_lines_counted (exit_on_error(max_err) counts lines of errors and hints), C104_quiet_hint (a quiet warning marks the disable hint as displayed), C104_init_keeps_warnings (init_log_system keeps old warnings)."
  },
  {
   "property": "C105",
   "status": "proved",
   "theorems": [
    "Netlab.C105_accepted",
    "Netlab.C105_devices",
    "Netlab.C105_list",
    "Netlab.C105_errors",
    "Netlab.C105_supported",
    "Netlab.C105_no_crash",
    "Netlab.C105_tools",
    "Netlab.C105_tools_start",
    "Netlab.C105_unknown_tool"
   ],
   "note": "Defect (C105_unknown_tool): an unknown tool without a runtime crashes netlab after the error is reported, because the missing runtime is an empty Box used as a dictionary key."
  },
  {
   "property": "C106",
   "status": "proved",
   "theorems": [
    "Netlab.C106_redirect",
    "Netlab.C106_not_found",
    "Netlab.C106_loaded",
    "Netlab.C106_order",
    "Netlab.C106_execute",
    "Netlab.C106_compose",
    "Netlab.C106_requires",
    "Netlab.C106_executed_twice",
    "Netlab.C106_bad_requires",
    "Netlab.C106_redirect_loop"
   ],
   "note": "Defects: a plugin listed in the lab topology and in system defaults, or listed under two names, is executed twice (C106_executed_twice); a _requires attribute that is not a list crashes the sorting of plugins before the error can be reported (C106_bad_requires); a plugin redirected to itself crashes netlab (C106_redirect_loop)."
  },
  {
   "property": "C107",
   "status": "proved",
   "theorems": [
    "Netlab.C107_version",
    "Netlab.C107_requirement",
    "Netlab.C107_versioned",
    "Netlab.C107_any_order",
    "Netlab.C107_file_exists",
    "Netlab.C107_operator_crash",
    "Netlab.C107_missing_file",
    "Netlab.C107_include_all",
    "Netlab.C107_includes_done",
    "Netlab.C107_no_includes",
    "Netlab.C107_included",
    "Netlab.C107_include_keeps",
    "Netlab.C107_include_top",
    "Netlab.C107_include_replaces",
    "Netlab.C107_cli_value",
    "Netlab.C107_cli_setting",
    "Netlab.C107_cli_wins",
    "Netlab.C107_cli_crash",
    "Netlab.C107_cli_plugins",
    "Netlab.C107_cli_provider",
    "Netlab.C107_cli_list",
    "Netlab.C107_cli_stages",
    "Netlab.C107_cli_parts"
   ],
   "note": "Defects: the file name of the selected topology is made from the normalized version and might not exist (C107_missing_file); a versioned topology with a comparison operator in its name crashes netlab (C107_operator_crash); a CLI setting without exactly one equal sign crashes netlab even when an error was reported (C107_cli_crash); an included file replaces the existing settings with the same name (C107_include_replaces)."
  },
  {
   "property": "C108",
   "status": "proved",
   "theorems": [
    "Netlab.C108_reported",
    "Netlab.C108_first_location",
    "Netlab.C108_collection",
    "Netlab.C108_reported_once",
    "Netlab.C108_version_text",
    "Netlab.C108_ceos_text",
    "Netlab.C108_parts_unique",
    "Netlab.C108_junos_names",
    "Netlab.C108_junos_distinct",
    "Netlab.C108_junos_clash",
    "Netlab.C108_junos_vrf",
    "Netlab.C108_junos_again",
    "Netlab.C108_junos_master",
    "Netlab.C108_junos_mtu",
    "Netlab.C108_junos_native",
    "Netlab.C108_loopbacks",
    "Netlab.C108_ospf_index",
    "Netlab.C108_vsx_roles",
    "Netlab.C108_tagged_1",
    "Netlab.C108_reserved",
    "Netlab.C108_linux",
    "Netlab.C108_bundle",
    "Netlab.C108_unknown",
    "Netlab.C108_passive_value",
    "Netlab.C108_passive"
   ],
   "note": "Positive: C108_reported, _first_location, _collection, _reported_once, _parts_unique, _junos_names, _junos_distinct, _junos_vrf, _junos_again, _junos_master, _junos_mtu, _junos_native, _loopbacks, _ospf_index, _vsx_roles, _tagged_1, _reserved, _linux, _bundle, _unknown, _passive, _passive_value. Defects: C108_version_text, C108_ceos_text (versions compared as text, registry port taken for a version), C108_junos_clash. Not modelled: quirks that only check features and report an error, and the texts of messages."
  },
  {
   "property": "C109",
   "status": "proved",
   "theorems": [
    "Netlab.C109_calls",
    "Netlab.C109_stages",
    "Netlab.C109_once",
    "Netlab.C109_no_crash",
    "Netlab.C109_extra_twice",
    "Netlab.C109_order",
    "Netlab.C109_link_order",
    "Netlab.C109_reorder_keeps",
    "Netlab.C109_remove",
    "Netlab.C109_copy",
    "Netlab.C109_copy_disabled",
    "Netlab.C109_copy_each",
    "Netlab.C109_copy_vrf_skipped",
    "Netlab.C109_copy_crash"
   ],
   "note": "Positive: C109_calls, _stages, _once, _no_crash, _order, _reorder_keeps, _remove, _copy, _copy_disabled, _copy_each. Defects: C109_extra_twice, C109_link_order, C109_copy_vrf_skipped, C109_copy_crash. Simplification: hooks do not change module lists during a stage."
  },
  {
   "property": "C110",
   "status": "proved",
   "theorems": [
    "Netlab.C110_as_clusters",
    "Netlab.C110_one_as",
    "Netlab.C110_group_clusters",
    "Netlab.C110_links",
    "Netlab.C110_crash",
    "Netlab.C110_nodes",
    "Netlab.C110_as_graph",
    "Netlab.C110_host_missing",
    "Netlab.C110_two_clusters",
    "Netlab.C110_as_name",
    "Netlab.C110_d2_links",
    "Netlab.C110_d2_missing",
    "Netlab.C110_sessions",
    "Netlab.C110_session_drawn",
    "Netlab.C110_direction",
    "Netlab.C110_rr_false",
    "Netlab.C110_d2_sessions",
    "Netlab.C110_d2_direction"
   ],
   "note": "Defects recorded as theorems: nodes without an AS number are not drawn in a graph with AS clusters (C110_host_missing); with groups and AS clusters a node is drawn in two clusters (C110_two_clusters); AS names are never used because integer keys of the AS list never match cluster names (C110_as_name); a D2 graph using groups draws only group members (C110_d2_missing); a session between a route reflector and a node with bgp.rr set to False has no direction (C110_rr_false)."
  },
  {
   "property": "C111",
   "status": "proved",
   "theorems": [
    "Netlab.C111_bonds",
    "Netlab.C111_bond_members",
    "Netlab.C111_bond_interfaces",
    "Netlab.C111_bond_peer_name",
    "Netlab.C111_bond_other_link",
    "Netlab.C111_originate",
    "Netlab.C111_proxy_arp",
    "Netlab.C111_proxy_arp_false",
    "Netlab.C111_vrrp",
    "Netlab.C111_vtep",
    "Netlab.C111_vtep_shared",
    "Netlab.C111_vtep_ok",
    "Netlab.C111_check",
    "Netlab.C111_check_stops",
    "Netlab.C111_multilab_eval",
    "Netlab.C111_multilab_merge",
    "Netlab.C111_multilab_init"
   ],
   "note": "Defects recorded as theorems: neighbors know the bond interface under its real name only if the bond index equals the interface index of the member (C111_bond_peer_name); the bond name is also written into neighbor data of links that are not in the bond (C111_bond_other_link); proxy_arp: False enables proxy ARP (C111_proxy_arp_false); check.config stops at the first configuration it finds (C111_check_stops). The interface names of neighbors, format strings, and address pools are parameters or not modelled."
  },
  {
   "property": "C112",
   "status": "proved",
   "theorems": [
    "Netlab.C112_bgp_frr",
    "Netlab.C112_bgp_frr_up",
    "Netlab.C112_bgp_frr_missing",
    "Netlab.C112_bgp_eos",
    "Netlab.C112_bgp_eos_up",
    "Netlab.C112_bgp_no_peers",
    "Netlab.C112_bgp_missing_differs",
    "Netlab.C112_bgp_details",
    "Netlab.C112_ospf_frr",
    "Netlab.C112_ospf_frr_flat",
    "Netlab.C112_ospf6_frr",
    "Netlab.C112_ospf_eos",
    "Netlab.C112_ospf_parallel",
    "Netlab.C112_ospf_prefix",
    "Netlab.C112_ospf_prefix_missing",
    "Netlab.C112_ospf6_prefix",
    "Netlab.C112_ospf_missing_two",
    "Netlab.C112_ospf_prefix_eos",
    "Netlab.C112_isis_neighbor",
    "Netlab.C112_isis_prefix",
    "Netlab.C112_isis_parallel",
    "Netlab.C112_route",
    "Netlab.C112_route6",
    "Netlab.C112_route_missing",
    "Netlab.C112_ping",
    "Netlab.C112_ping_ten",
    "Netlab.C112_default6",
    "Netlab.C112_linux_route",
    "Netlab.C112_linux_route_waiting",
    "Netlab.C112_linux_route_missing",
    "Netlab.C112_linux_route_other"
   ],
   "note": "Defects proved as theorems: C112_bgp_no_peers, C112_bgp_missing_differs, C112_ospf_parallel, C112_isis_parallel, C112_ospf_missing_two, C112_route_missing (a prefix in the routing table passes the test that it is missing), C112_ping_ten, C112_linux_route_missing (fails for every routing table), C112_linux_route_other. Address normalisation (ipaddress) is a parameter; the texts of messages and show commands are not modelled; grep patterns have only literals and dots."
  },
  {
   "property": "C113",
   "status": "proved",
   "theorems": [
    "Netlab.C113_id_chars",
    "Netlab.C113_id_text",
    "Netlab.C113_topology_name",
    "Netlab.C113_name_empty",
    "Netlab.C113_id_digit",
    "Netlab.C113_prefix_dict",
    "Netlab.C113_prefix_legacy",
    "Netlab.C113_prefix_text",
    "Netlab.C113_export_value",
    "Netlab.C113_export_objects",
    "Netlab.C113_export_errors",
    "Netlab.C113_counts",
    "Netlab.C113_clean_pools",
    "Netlab.C113_clean_groups"
   ],
   "note": "Defects: a directory with a name that has only digits gives the lab an empty name (C113_name_empty), identifiers can start with a digit (C113_id_digit), and the version of an IP prefix is not checked (`ipv4` values can be IPv6 prefixes, visible in ItemParsed). IP address parsers and named prefixes are parameters."
  },
  {
   "property": "C114",
   "status": "proved",
   "theorems": [
    "Netlab.C114_host",
    "Netlab.C114_substitute",
    "Netlab.C114_show",
    "Netlab.C114_command",
    "Netlab.C114_ssh",
    "Netlab.C114_docker",
    "Netlab.C114_method",
    "Netlab.C114_tool_last",
    "Netlab.C114_run_started",
    "Netlab.C114_run_result",
    "Netlab.C114_dry_validate",
    "Netlab.C114_missing_validate",
    "Netlab.C114_up_validate",
    "Netlab.C114_probe",
    "Netlab.C114_probe_quiet",
    "Netlab.C114_provider_status"
   ],
   "note": "Defects: in a dry run `netlab up --validate` reports a failed validation because True == 1 (C114_dry_validate); a validation command that cannot be started is not reported because False == 0 (C114_missing_validate); `netlab connect` executes only the last connect command of a tool (C114_tool_last). Private keys and tool commands are evaluated before (Jinja2 and f-strings are not modelled); the operating system is a parameter."
  },
  {
   "property": "C115",
   "status": "proved",
   "theorems": [
    "Netlab.C115_command",
    "Netlab.C115_plugin",
    "Netlab.C115_json",
    "Netlab.C115_json_none",
    "Netlab.C115_parsed",
    "Netlab.C115_wait",
    "Netlab.C115_wait_until",
    "Netlab.C115_extend",
    "Netlab.C115_first",
    "Netlab.C115_filter",
    "Netlab.C115_suzieq"
   ],
   "note": "A test with no action and no plugin crashes (C115_plugin). The JSON parser, Jinja2 and the execution of commands are parameters; times are whole seconds."
  },
  {
   "property": "C116",
   "status": "proved",
   "theorems": [
    "Netlab.C116_unnumbered",
    "Netlab.C116_unnumbered_link",
    "Netlab.C116_static_address",
    "Netlab.C116_static_lost",
    "Netlab.C116_unique",
    "Netlab.C116_pool_choice",
    "Netlab.C116_own_prefix",
    "Netlab.C116_in_prefix",
    "Netlab.C116_gateway",
    "Netlab.C116_static_overlap",
    "Netlab.C116_unknown_pool"
   ],
   "note": "Prefixes specified in the topology are never compared with address pools, so two links can get the same addresses (C116_static_overlap). A link with an unknown pool is an error, but it still gets a prefix from the next pool (C116_unknown_pool). The theorem assumes the duplicate_address warning is enabled (the default). The loopback allocation method replaces addresses specified by the user (C116_static_lost)."
  },
  {
   "property": "C117",
   "status": "proved",
   "theorems": [
    "Netlab.C117_isolation",
    "Netlab.C117_down",
    "Netlab.C117_up",
    "Netlab.C117_recovery",
    "Netlab.C117_restart",
    "Netlab.C117_after_history",
    "Netlab.C117_roundtrip",
    "Netlab.C117_force"
   ],
   "note": "Defect shown by C117_force: 'netlab down --force' forgets the status entry and the lock of a lab that was not stopped. An interruption between truncating and writing the status file loses entries of all labs (C36), which is why the part of C117_recovery on other labs excludes that window."
  },
  {
   "property": "C118",
   "status": "proved",
   "theorems": [
    "Netlab.C118_unique",
    "Netlab.C118_devices",
    "Netlab.C118_named",
    "Netlab.C118_mgmt",
    "Netlab.C118_lab",
    "Netlab.C118_lab_mgmt",
    "Netlab.C118_container",
    "Netlab.C118_veth_multilab",
    "Netlab.C118_veth_length",
    "Netlab.C118_veth",
    "Netlab.C118_veth_clash",
    "Netlab.C118_static_name",
    "Netlab.C118_svi",
    "Netlab.C118_subif"
   ],
   "note": "Name templates of all devices are transcribed from netsim/devices and netsim/daemons with inherited values filled in; C118_unique is proved for any device data that pass the check namesOk, C118_devices for the whole table. Defects: C118_static_name (user-specified interface names are not compared with other names), C118_veth_clash (nodes with the same first ten characters of the name get the same host-side interface name on a containerlab bridge). C118_svi and C118_subif combine the templates with the VLAN interfaces created in C64/C66: names of VLAN interfaces and VLAN subinterfaces of a node are different when every VLAN of the node has its own identifier."
  },
  {
   "property": "C119",
   "status": "proved",
   "theorems": [
    "Netlab.C119_node_ids",
    "Netlab.C119_lab",
    "Netlab.C119_static_id_shifts",
    "Netlab.C119_loopback_pool_shifts",
    "Netlab.C119_vlan_prefix_shifts",
    "Netlab.C119_vlans",
    "Netlab.C119_global_vlan_shifts",
    "Netlab.C119_vnis",
    "Netlab.C119_static_vni_shifts",
    "Netlab.C119_vrfs",
    "Netlab.C119_node_vrfs",
    "Netlab.C119_global_vrf_shifts"
   ],
   "note": "The conditions are needed: C119_static_id_shifts (a new node with the identifier of an existing node changes identifiers, loopback and link addresses of existing nodes), C119_loopback_pool_shifts (the loopback of a new node takes prefixes from the pool of link prefixes), C119_vlan_prefix_shifts (prefixes of new VLANs are allocated before link prefixes and change the prefixes of existing links), C119_global_vlan_shifts (a new global VLAN changes the automatic identifiers of node VLANs). Existing links are links between existing nodes; the result of the larger topology is compared only when its transformation succeeds. C119_global_vrf_shifts (a new global VRF changes the automatic identifiers and route distinguishers of node VRFs), C119_static_vni_shifts (a new VLAN with the VNI of an existing VLAN changes the VNI of the existing VLAN)."
  },
  {
   "property": "C120",
   "status": "proved",
   "theorems": [
    "Netlab.C120_neighbors",
    "Netlab.C120_unique",
    "Netlab.C120_connected",
    "Netlab.C120_two_interfaces",
    "Netlab.C120_daemon_local_as"
   ],
   "note": "End-to-end composition of C02, C95, C116, C12, C23 and C24. The conditions are needed: C120_two_interfaces (a node with two interfaces on the same link gets two EBGP neighbors with the same address without an error), C120_daemon_local_as (a daemon without a loopback that uses a local AS is an IBGP and an EBGP neighbor with the same address). VLAN interfaces and changes made by plugins are not part of the composition."
  },
  {
   "property": "C121",
   "status": "proved",
   "theorems": [
    "Netlab.C121_ebgp",
    "Netlab.C121_ibgp",
    "Netlab.C121_address_family_mismatch"
   ],
   "note": "Defect: nodes with bgp.sessions in different address families get sessions that cannot be established, and no error is reported (C121_address_family_mismatch)."
  },
  {
   "property": "C122",
   "status": "proved",
   "theorems": [
    "Netlab.C122_unique",
    "Netlab.C122_static_loopback",
    "Netlab.C122_overlapping_pools"
   ],
   "note": "Defects: loopback addresses specified in the topology are not compared with router identifiers allocated from the pool (C122_static_loopback); overlapping loopback and router_id pools with different prefix lengths are accepted and result in duplicate router identifiers (C122_overlapping_pools)."
  },
  {
   "property": "C123",
   "status": "proved",
   "theorems": [
    "Netlab.C123_only",
    "Netlab.C123_dry_run",
    "Netlab.C123_complete",
    "Netlab.C123_snapshot_last",
    "Netlab.C123_repeat",
    "Netlab.C123_modified",
    "Netlab.C123_link_to_directory",
    "Netlab.C123_dangling_link",
    "Netlab.C123_tool_failure"
   ],
   "note": "Tool commands other than the removal of the tool directory are assumed not to change files in the lab directory. Defects: a symbolic link to a directory aborts every cleanup (C123_link_to_directory); symbolic links that point nowhere are never removed (C123_dangling_link); a failed removal of a tool directory is ignored and the snapshot is removed, so the cleanup cannot be repeated (C123_tool_failure)."
  },
  {
   "property": "C124",
   "status": "proved",
   "theorems": [
    "Netlab.C124_sorted",
    "Netlab.C124_rr_clusters",
    "Netlab.C124_vrf_ids",
    "Netlab.C124_vlan_link",
    "Netlab.C124_configs",
    "Netlab.C124_undefined_vrfs",
    "Netlab.C124_node_vlan_prefix",
    "Netlab.C124_unrelated_configs"
   ],
   "note": "Defects proved: VRFs used in VLANs but defined nowhere are created silently and their identifiers depend on the set order (C124_undefined_vrfs); the prefix of a link with a VLAN defined on its nodes is taken from an arbitrary node (C124_node_vlan_prefix); configurations never used on the same node are listed in set order (C124_unrelated_configs)."
  },
  {
   "property": "C125",
   "status": "proved",
   "theorems": [
    "Netlab.C125_same",
    "Netlab.C125_interface",
    "Netlab.C125_disabled",
    "Netlab.C125_attributes",
    "Netlab.C125_area_mismatch"
   ],
   "note": "Limit shown: nodes with different default areas use different areas on a common link without an error (C125_area_mismatch)."
  },
  {
   "property": "C126",
   "status": "proved",
   "theorems": [
    "Netlab.C126_connected",
    "Netlab.C126_isolated",
    "Netlab.C126_named",
    "Netlab.C126_leak_without_globals",
    "Netlab.C126_node_vrfs_disconnected"
   ],
   "note": "Composition of the two VRF passes. Limits proved: C126_leak_without_globals (node VRFs only: static RD equals an automatic RD, routes leak), C126_node_vrfs_disconnected (same-named node VRFs are different VPNs)."
  },
  {
   "property": "C127",
   "status": "proved",
   "theorems": [
    "Netlab.C127_mesh",
    "Netlab.C127_reciprocal",
    "Netlab.C127_mixed_flooding"
   ],
   "note": "Limit proved: C127_mixed_flooding (a node using EVPN is in the static lists of the others but has none itself)."
  },
  {
   "property": "C128",
   "status": "proved",
   "theorems": [
    "Netlab.C128_interface_tag",
    "Netlab.C128_same_tag",
    "Netlab.C128_different_tags",
    "Netlab.C128_trunk_tags",
    "Netlab.C128_trunk_ends",
    "Netlab.C128_access_link",
    "Netlab.C128_local_vlans"
   ],
   "note": "The VLAN data seen by createSvi is related to the result of vlanTransform by the hypothesis TagsFrom (same identifiers). Limit proved: C128_local_vlans (VLANs with the same name defined in two nodes have different tags; the check that should reject this is never reached, see C62_local_names)."
  },
  {
   "property": "C129",
   "status": "proved",
   "theorems": [
    "Netlab.C129_automatic_addresses",
    "Netlab.C129_unreserved_gateway",
    "Netlab.C129_same_node_twice"
   ],
   "note": "Composition of C02, C29, C09 and C51. Witnesses: a gateway identifier not seen by the gateway module clashes with a node identifier; a node attached twice to a link with ID-based addressing gets the same address twice (both are reported)."
  },
  {
   "property": "C130",
   "status": "proved",
   "theorems": [
    "Netlab.C130_bridge_list",
    "Netlab.C130_other_bridges",
    "Netlab.C130_start",
    "Netlab.C130_stop",
    "Netlab.C130_start_stop",
    "Netlab.C130_existing_bridge_removed",
    "Netlab.C130_kernel_modules",
    "Netlab.C130_container_images",
    "Netlab.C130_images_accepted",
    "Netlab.C130_installed_box",
    "Netlab.C130_similar_box",
    "Netlab.C130_management_network",
    "Netlab.C130_similar_network"
   ],
   "note": "Host commands are modelled by their effect on the host; failures are arbitrary. Negative results with witnesses: a bridge that existed before the lab was started is deleted when the lab is stopped; box names, box versions and names of permanent management networks are compared as parts of text."
  },
  {
   "property": "C131",
   "status": "proved",
   "theorems": [
    "Netlab.C131_reported",
    "Netlab.C131_always",
    "Netlab.C131_fewer",
    "Netlab.C131_unknown_vm",
    "Netlab.C131_native_local",
    "Netlab.C131_loopbacks",
    "Netlab.C131_stub",
    "Netlab.C131_stubs",
    "Netlab.C131_ceos",
    "Netlab.C131_shared_vtep",
    "Netlab.C131_mlag_pair",
    "Netlab.C131_eos_interfaces"
   ],
   "note": "The list of unsupported combinations is an inductive predicate in Spec/DeviceChecks; C131_reported is an equivalence. Defects proved: an unknown virtual machine in a containerlab lab needs a containerlab kind (C131_unknown_vm); a mixed trunk with a routed native VLAN is not reported on Cumulus NVUE when the VLAN is defined only on nodes (C131_native_local). Warnings (reports that are not errors), checks of passive RIPng interfaces and OSPF default route attributes are not modelled."
  },
  {
   "property": "C132",
   "status": "proved",
   "theorems": [
    "Netlab.C132_hosts",
    "Netlab.C132_crash",
    "Netlab.C132_gateway",
    "Netlab.C132_reachable",
    "Netlab.C132_ipv6_lost"
   ],
   "note": "Theorems: exact set of hosts/families/routes, exact condition for the exception (defect: two DHCP client interfaces, `host_af_list.remove` called twice), default routes used iff a gateway exists, composite of C60/C61 with all routes processed in order (gateway caching included). Defect witness: IPv6 routes lost with an IPv4-only gateway."
  },
  {
   "property": "C133",
   "status": "proved",
   "theorems": [
    "Netlab.C133_parameter",
    "Netlab.C133_start",
    "Netlab.C133_stop",
    "Netlab.C133_accepted",
    "Netlab.C133_default_runtime",
    "Netlab.C133_instance",
    "Netlab.C133_rows",
    "Netlab.C133_unrelated_container",
    "Netlab.C133_started",
    "Netlab.C133_vagrant",
    "Netlab.C133_docker",
    "Netlab.C133_address",
    "Netlab.C133_running"
   ],
   "note": "Defects proved: the runtime of a tool specified in system defaults is replaced with Docker as soon as the tool is listed in the topology (C133_default_runtime), a node that is not running is shown with the status of an unrelated container that has the node name (C133_unrelated_container). Hypotheses: unique keys, runtime data are dictionaries, tool names do not clash with the topology keys used by the commands. Formatting of commands is not modelled."
  },
  {
   "property": "C134",
   "status": "proved",
   "theorems": [
    "Netlab.C134_mgmt_network",
    "Netlab.C134_node_addresses",
    "Netlab.C134_mgmt_crash",
    "Netlab.C134_mgmt_wrong",
    "Netlab.C134_links",
    "Netlab.C134_bridge_names",
    "Netlab.C134_bridges",
    "Netlab.C134_capture_interface",
    "Netlab.C134_capture_host",
    "Netlab.C134_capture_sound",
    "Netlab.C134_capture_wrong"
   ],
   "note": "Defects proved: the program crashes when the management subnet has at most two addresses or does not contain the starting address (C134_mgmt_crash); a network name containing the default bridge name is changed by the bridge substitution, and with mgmt.start 102 in the default subnet the dynamic range is wrong and includes the address of the first node (C134_mgmt_wrong); packets are captured on the wrong interface when a VM has two interfaces in the same network (C134_capture_wrong)."
  },
  {
   "property": "C135",
   "status": "proved",
   "theorems": [
    "Netlab.C135_template",
    "Netlab.C135_files",
    "Netlab.C135_plain",
    "Netlab.C135_other_node",
    "Netlab.C135_startup",
    "Netlab.C135_own_file",
    "Netlab.C135_archive"
   ],
   "note": "Rendering of templates and reading of files are not modelled. The main theorem assumes different names of requested and mapped files and user mappings outside of the directory of the node. Defect C135_other_node: the test for generated files is a substring test, so a mapping of a file of node r10 on node r1 is reported as a missing template."
  },
  {
   "property": "C136",
   "status": "proved",
   "theorems": [
    "Netlab.C136_plain",
    "Netlab.C136_lag",
    "Netlab.C136_peer",
    "Netlab.C136_peers",
    "Netlab.C136_groups",
    "Netlab.C136_nothing_else",
    "Netlab.C136_all_processed",
    "Netlab.C136_invalid",
    "Netlab.C136_empty_members",
    "Netlab.C136_empty_peer"
   ],
   "note": "Defects proved: a LAG with an empty list of members is not reported and stops the processing of all following LAG links (C136_empty_members); a peer link with an empty list of members becomes a link without nodes (C136_empty_peer). Identical MLAG groups specified by the user on two peer links are not reported."
  },
  {
   "property": "C137",
   "status": "proved",
   "theorems": [
    "Netlab.C137_support",
    "Netlab.C137_unicast",
    "Netlab.C137_settings",
    "Netlab.C137_node_parameters",
    "Netlab.C137_module"
   ],
   "note": "The model returns none where the code raises an exception: cleanup_intf_protocol_parameters (line 87) uses node.gateway although a node may have no gateway attribute. An unsupported protocol is reported once per protocol, and the interfaces are left as they are."
  },
  {
   "property": "C138",
   "status": "proved",
   "theorems": [
    "Netlab.C138_members",
    "Netlab.C138_connected",
    "Netlab.C138_isolated",
    "Netlab.C138_static_clash"
   ],
   "note": "Hypothesis VnisValid: no VLAN has `vni: true` (the attribute is an integer). With `vni: true` in a global VLAN the copy in a node keeps `true` while the global VLAN gets a number. C138_static_clash: two VLANs with the same static VNI are connected to each other and nothing is reported. Two nodes with the same VTEP address are not connected (excluded by a hypothesis)."
  },
  {
   "property": "C139",
   "status": "proved",
   "theorems": [
    "Netlab.C139_restart",
    "Netlab.C139_topology_rejected"
   ],
   "note": "C139_topology_rejected (defect): netlab restart accepts a topology file, a snapshot file and logging flags, but passes them to netlab down, which exits with an error message. The argparse library is modelled for exact option names only."
  },
  {
   "property": "C140",
   "status": "proved",
   "theorems": [
    "Netlab.C140_existing",
    "Netlab.C140_success",
    "Netlab.C140_removed",
    "Netlab.C140_nested"
   ],
   "note": "C140_nested (defect): with a working directory `a/b` the command removes the directory a/a/b instead of a/b, and the working directory stays. A test aborted because the topology file cannot be copied leaves the working directory (fatal error)."
  },
  {
   "property": "C141",
   "status": "proved",
   "theorems": [
    "Netlab.C141_output",
    "Netlab.C141_archive",
    "Netlab.C141_tarball_name",
    "Netlab.C141_instance_tarball"
   ],
   "note": "C141_instance_tarball (defect): with --instance the configurations are collected in the lab directory and the tarball is created from the directory of the same name in the directory in which the command was started: the command fails, or it archives (and removes) unrelated files."
  },
  {
   "property": "C142",
   "status": "proved",
   "theorems": [
    "Netlab.C142_reported",
    "Netlab.C142_clean"
   ],
   "note": "Device features are a parameter. Values are compared as data structures (Python compares True and 1 as equal)."
  },
  {
   "property": "C143",
   "status": "proved",
   "theorems": [
    "Netlab.C143_nodes",
    "Netlab.C143_endpoints",
    "Netlab.C143_connected",
    "Netlab.C143_interfaces",
    "Netlab.C143_attributes",
    "Netlab.C143_interface_names",
    "Netlab.C143_short_names"
   ],
   "note": "Hypotheses come from the topology transformation: unique node names and link indexes, at least one interface per link, two interfaces on links drawn as a line. Links of other types (tunnel, loopback, LAG parent) are not drawn. C143_short_names: shortened interface names are not unique in general."
  },
  {
   "property": "C144",
   "status": "proved",
   "theorems": [
    "Netlab.C144_reported",
    "Netlab.C144_vrfs",
    "Netlab.C144_attributes"
   ],
   "note": "Values of VRFs are dictionaries with unique keys. A global VRF with no attributes counts as undefined, as in the code."
  },
  {
   "property": "C145",
   "status": "proved",
   "theorems": [
    "Netlab.C145_devices",
    "Netlab.C145_images",
    "Netlab.C145_support",
    "Netlab.C145_support_yaml",
    "Netlab.C145_support_yaml_all",
    "Netlab.C145_modules",
    "Netlab.C145_modules_yaml",
    "Netlab.C145_features_yaml",
    "Netlab.C145_columns",
    "Netlab.C145_cells",
    "Netlab.C145_support_yaml_lost"
   ],
   "note": "Refined to what the code does. Defects proved: 'netlab show modules --format yaml' without a module displays an empty dictionary for every module (C145_modules_yaml: settings[m].dev_list is used instead of the list of devices); 'netlab show module-support --format yaml' without a device merges all devices into one dictionary (C145_support_yaml_all, C145_support_yaml_lost: the default value of the argument is '*', so the test for a selected device is always true); names of features with three levels lose the first key (C145_columns). Table layout is not modelled."
  },
  {
   "property": "C146",
   "status": "proved",
   "theorems": [
    "Netlab.C146_action",
    "Netlab.C146_once",
    "Netlab.C146_repeated",
    "Netlab.C146_precedence",
    "Netlab.C146_tests"
   ],
   "note": "Defect proved (C146_repeated): the key used to report a missing plugin action only once is never stored (and has no f prefix), so the error is repeated for every attempt. The error for a missing plugin has no device name (missing f prefix) - a text, not modelled."
  },
  {
   "property": "C147",
   "status": "proved",
   "theorems": [
    "Netlab.C147_parse",
    "Netlab.C147_module",
    "Netlab.C147_settings",
    "Netlab.C147_truncated",
    "Netlab.C147_outputs",
    "Netlab.C147_unknown",
    "Netlab.C147_yaml",
    "Netlab.C147_tools",
    "Netlab.C147_tools_empty"
   ],
   "note": "C147_settings is an equivalence (defect: `graph=file` ignores user settings). C147_truncated, C147_unknown and C147_tools_empty are defects. The Python expression evaluator, the output modules and templates are parameters."
  },
  {
   "property": "C148",
   "status": "proved",
   "theorems": [
    "Netlab.C148_unchanged",
    "Netlab.C148_copy",
    "Netlab.C148_merge",
    "Netlab.C148_valid",
    "Netlab.C148_missing",
    "Netlab.C148_order"
   ],
   "note": "Keys have no dots and a request is the name of a device. Two values are never the same Python object in the model: a later change in a copied dictionary is not seen in the copy (the theorems require that the copied data have no requests). C148_order is the defect with the order of devices; C148_merge shows that own settings (including the merge request) are in the result."
  },
  {
   "property": "C149",
   "status": "proved",
   "theorems": [
    "Netlab.C149_inspect",
    "Netlab.C149_colon",
    "Netlab.C149_equal",
    "Netlab.C149_attributes",
    "Netlab.C149_interface",
    "Netlab.C149_files"
   ],
   "note": "Two defects are proved: the part of an inspected expression after a colon (slices, conditions on strings) is ignored (C149_colon), and the part after an equal sign (comparisons) is used as the name of a file that is overwritten (C149_equal). Displaying the value (colours, tables) is not modelled; Python eval is a parameter."
  },
  {
   "property": "C150",
   "status": "proved",
   "theorems": [
    "Netlab.C150_entry",
    "Netlab.C150_prefix",
    "Netlab.C150_objects",
    "Netlab.C150_errors",
    "Netlab.C150_all_errors",
    "Netlab.C150_data",
    "Netlab.C150_idempotent"
   ],
   "note": "The normalization of policy entries is a parameter here (it is proved in the property about routing policies). Python str is a parameter."
  },
  {
   "property": "C151",
   "status": "proved",
   "theorems": [
    "Netlab.C151_vm_unique",
    "Netlab.C151_vm_labs",
    "Netlab.C151_vm_clash",
    "Netlab.C151_vm_dot",
    "Netlab.C151_containers",
    "Netlab.C151_box",
    "Netlab.C151_box_version",
    "Netlab.C151_links",
    "Netlab.C151_external"
   ],
   "note": "Defects proved: virtual machines of two labs can have the same name when lab names contain underscores (C151_vm_clash) or dots (C151_vm_dot); the version of a Vagrant box is ignored when there is no dot in the box and its version (C151_box_version)."
  },
  {
   "property": "C152",
   "status": "proved",
   "theorems": [
    "Netlab.C152_prefix",
    "Netlab.C152_ready",
    "Netlab.C152_stop",
    "Netlab.C152_complete",
    "Netlab.C152_sudo",
    "Netlab.C152_pip",
    "Netlab.C152_no_flags",
    "Netlab.C152_sudo_lost"
   ],
   "note": "Defect proved: a script that installs system packages is executed without sudo when a script before it installs Python libraries in a virtual environment (C152_sudo_lost). The content of scripts and the text of messages are not modelled."
  },
  {
   "property": "C153",
   "status": "proved",
   "theorems": [
    "Netlab.C153_confirm",
    "Netlab.C153_stop",
    "Netlab.C153_stopped",
    "Netlab.C153_remove",
    "Netlab.C153_conflict",
    "Netlab.C153_all",
    "Netlab.C153_nodes",
    "Netlab.C153_log",
    "Netlab.C153_docker",
    "Netlab.C153_no_containers"
   ],
   "note": "Defect proved: C153_no_containers (with no running container \"docker kill\" is executed without arguments instead of being skipped). A missing lab directory crashes --cleanup (modelled as an error without effects). The result of the \"netlab down\" command is C13 and other properties."
  },
  {
   "property": "C154",
   "status": "proved",
   "theorems": [
    "Netlab.C154_not_started",
    "Netlab.C154_answer_ignored",
    "Netlab.C154_success",
    "Netlab.C154_order",
    "Netlab.C154_interrupt",
    "Netlab.C154_exception",
    "Netlab.C154_installed",
    "Netlab.C154_left_behind",
    "Netlab.C154_disk",
    "Netlab.C154_wrong_disk",
    "Netlab.C154_version",
    "Netlab.C154_skip_preinstall"
   ],
   "note": "Defects proved: C154_answer_ignored (the box is built even when the user answers no), C154_left_behind (when an external command fails the program exits without removing the VM, the network and the build directory), C154_skip_preinstall (--skip preinstall also skips the installation), C154_wrong_disk (disk names with spaces; stale VMDK files used instead of the extracted one). Removal commands are assumed to work."
  },
  {
   "property": "C155",
   "status": "proved",
   "theorems": [
    "Netlab.C155_reported",
    "Netlab.C155_gateway",
    "Netlab.C155_no_false_alarm",
    "Netlab.C155_missed"
   ],
   "note": "Trunk VLANs are not part of the modelled interface creation. Defects proved: C155_missed."
  },
  {
   "property": "C156",
   "status": "proved",
   "theorems": [
    "Netlab.C156_warned",
    "Netlab.C156_once",
    "Netlab.C156_same_nodes",
    "Netlab.C156_text",
    "Netlab.C156_quiet",
    "Netlab.C156_links",
    "Netlab.C156_false_alarm"
   ],
   "note": "False alarm: a LAG between a switch and a host in a lab with a single provider results in a warning although it uses no Linux bridge (C156_false_alarm)."
  },
  {
   "property": "C157",
   "status": "proved",
   "theorems": [
    "Netlab.C157_last_request",
    "Netlab.C157_unchanged",
    "Netlab.C157_stays_on",
    "Netlab.C157_verbose",
    "Netlab.C157_debug",
    "Netlab.C157_returned"
   ],
   "note": ""
  },
  {
   "property": "C158",
   "status": "proved",
   "theorems": [
    "Netlab.C158_restored",
    "Netlab.C158_others",
    "Netlab.C158_clean"
   ],
   "note": "Proved through creation of VLAN interfaces, VLAN-wide neighbor lists and the final cleanup. VLAN trunks (subinterfaces, the \"SubIf VLAN\" text is modelled but not reached) and routed VLANs are outside these theorems."
  },
  {
   "property": "C159",
   "status": "proved",
   "theorems": [
    "Netlab.C159_servers",
    "Netlab.C159_same",
    "Netlab.C159_vrf",
    "Netlab.C159_errors"
   ],
   "note": "The VRF of a pool is a parameter of the model. The list of pools is shared by all servers in the code; later changes of the shared list are not modelled."
  },
  {
   "property": "C160",
   "status": "proved",
   "theorems": [
    "Netlab.C160_accepted",
    "Netlab.C160_reported",
    "Netlab.C160_complete"
   ],
   "note": "Keys are texts; anchors, merge keys and the YAML parser itself are not modelled."
  },
  {
   "property": "C161",
   "status": "proved",
   "theorems": [
    "Netlab.C161_nodes",
    "Netlab.C161_only",
    "Netlab.C161_pools",
    "Netlab.C161_node_all"
   ],
   "note": "A node called \"all\" replaces the entry with address pools (C161_node_all). Names of nodes have no dots; whether removing internal attributes also changes the topology depends on the Box library and is not modelled."
  },
  {
   "property": "C162",
   "status": "proved",
   "theorems": [
    "Netlab.C162_static_transit",
    "Netlab.C162_reported",
    "Netlab.C162_auto_transit",
    "Netlab.C162_auto_clash"
   ],
   "note": "Defect proved as C162_auto_clash: an automatic transit VNI is not compared with VLAN VNIs, so it can be equal to the static VNI of a VLAN without an error. EVPN with VXLAN transport."
  }
 ]
}
