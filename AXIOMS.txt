'Netlab.C01_set_contents' depends on axioms: [propext, Quot.sound]
'Netlab.C01_fresh' depends on axioms: [propext, Quot.sound]
'Netlab.C01_nodup' depends on axioms: [propext, Quot.sound]
'Netlab.C01_counter_invariant' depends on axioms: [propext, Classical.choice, Quot.sound]
'Netlab.C01_bounds' depends on axioms: [propext, Classical.choice, Quot.sound]
'Netlab.C01_fatal_iff_exhausted' depends on axioms: [propext, Classical.choice, Quot.sound]
'Netlab.C01_least' depends on axioms: [propext, Quot.sound]
'Netlab.C01_start_above_limit_not_detected' depends on axioms: [propext, Quot.sound]
'Netlab.C02_node_ids' depends on axioms: [propext, Classical.choice, Quot.sound]
'Netlab.C02_accepted' depends on axioms: [propext, Classical.choice, Quot.sound]
'Netlab.C02_duplicate_rejected' depends on axioms: [propext, Classical.choice, Quot.sound]
'Netlab.C02_numeric_string_bypasses_limit' depends on axioms: [propext, Quot.sound]
'Netlab.C03_length_and_containment' depends on axioms: [propext, Classical.choice, Quot.sound]
'Netlab.C03_sequential_disjoint' depends on axioms: [propext, Classical.choice, Quot.sound]
'Netlab.C03_sequence_and_exhaustion' depends on axioms: [propext, Classical.choice, Quot.sound]
'Netlab.C03_exhausted_forever' depends on axioms: [propext, Classical.choice, Quot.sound]
'Netlab.C04_same_index_same_prefix' depends on axioms: [propext, Classical.choice, Quot.sound]
'Netlab.C04_different_requests_disjoint' depends on axioms: [propext, Classical.choice, Quot.sound]
'Netlab.C05_first_existing_pool' depends on axioms: [propext, Quot.sound]
'Netlab.C05_no_pool_is_an_error' depends on axioms: [propext, Quot.sound]
'Netlab.C05_other_pools_untouched' depends on axioms: [propext, Classical.choice, Quot.sound]
'Netlab.C06_id_based_addresses' depends on axioms: [propext, Classical.choice, Quot.sound]
'Netlab.C06_id_based_distinct' depends on axioms: [propext, Classical.choice, Quot.sound]
'Netlab.C06_id_too_large_is_an_error' depends on axioms: [propext, Classical.choice, Quot.sound]
'Netlab.C07_sequential_addresses' depends on axioms: [propext, Classical.choice, Quot.sound]
'Netlab.C07_sequential_increasing' depends on axioms: [propext, Classical.choice, Quot.sound]
'Netlab.C07_sequential_skips_gateway' depends on axioms: [propext, Classical.choice, Quot.sound]
'Netlab.C07_exhaustion_is_an_error' depends on axioms: [propext, Classical.choice, Quot.sound]
'Netlab.C07_negative_gateway_not_skipped' depends on axioms: [propext, Classical.choice, Quot.sound]
'Netlab.C08_p2p_addresses' depends on axioms: [propext, Classical.choice, Quot.sound]
'Netlab.C08_two_nodes' depends on axioms: [propext, Classical.choice, Quot.sound]
'Netlab.C09_explicit_allocation_wins' does not depend on any axioms
'Netlab.C09_decision_table' depends on axioms: [propext, Classical.choice, Quot.sound]
'Netlab.C09_automatic_choice_succeeds' depends on axioms: [propext, Classical.choice, Quot.sound]
'Netlab.C09_single_node_on_31_fails' depends on axioms: [propext, Classical.choice, Quot.sound]
'Netlab.C09_gateway_at_the_end_of_30' depends on axioms: [propext, Classical.choice, Quot.sound]
'Netlab.C10_index_range' depends on axioms: [propext, Classical.choice, Quot.sound]
'Netlab.C10_static_index_kept' depends on axioms: [propext, Classical.choice, Quot.sound]
'Netlab.C10_unique_unless_static' depends on axioms: [propext, Classical.choice, Quot.sound]
'Netlab.C10_lowest_free_or_exhausted' depends on axioms: [propext, Quot.sound]
'Netlab.C10_static_index_not_checked' depends on axioms: [propext]
'Netlab.C11_numbered_from_start' depends on axioms: [propext]
'Netlab.C11_unique_indices' depends on axioms: [propext, Classical.choice, Quot.sound]
'Netlab.C11_lookup' depends on axioms: [propext, Classical.choice, Quot.sound]
'Netlab.C11_default_start_is_positional' depends on axioms: [propext, Quot.sound]
'Netlab.C11_lag_member_index_collision' does not depend on any axioms
'Netlab.C12_neighbors_are_other_interfaces' depends on axioms: [propext, Classical.choice, Quot.sound]
'Netlab.C12_neighbor_is_on_the_same_link' depends on axioms: [propext, Classical.choice, Quot.sound]
'Netlab.C12_symmetric' depends on axioms: [propext, Classical.choice, Quot.sound]
'Netlab.C13_sorted' depends on axioms: [propext, Quot.sound]
'Netlab.C13_error_iff_loop' depends on axioms: [propext, Classical.choice, Quot.sound]
'Netlab.C13_independent_unchanged' depends on axioms: [propext, Classical.choice, Quot.sound]
'Netlab.C13_idempotent' depends on axioms: [propext, Classical.choice, Quot.sound]
'Netlab.C13_modules' depends on axioms: [propext, Quot.sound]
'Netlab.C13_plugins' depends on axioms: [propext, Quot.sound]
'Netlab.C14_rejected_iff_recursive' depends on axioms: [propext, Classical.choice, Quot.sound]
'Netlab.C14_sort_terminates_iff' depends on axioms: [propext, Classical.choice, Quot.sound]
'Netlab.C14_inner_groups_first' depends on axioms: [propext, Classical.choice, Quot.sound]
'Netlab.C14_members_exact' depends on axioms: [propext, Quot.sound]
'Netlab.C14_expansion_succeeds' depends on axioms: [propext, Classical.choice, Quot.sound]
'Netlab.C14_aborted_iff' depends on axioms: [propext, Quot.sound]
'Netlab.C14_repeated_iff' depends on axioms: [propext, Classical.choice, Quot.sound]
'Netlab.C14_deep_hierarchy_aborted' depends on axioms: [propext, Classical.choice, Quot.sound]
'Netlab.C15_node_values_kept' depends on axioms: [propext, Classical.choice, Quot.sound]
'Netlab.C15_values_come_from_groups' depends on axioms: [propext, Classical.choice, Quot.sound]
'Netlab.C15_innermost_group_wins' depends on axioms: [propext, Classical.choice, Quot.sound]
'Netlab.C15_unused_module_data' depends on axioms: [propext, Quot.sound]
'Netlab.C15_device' depends on axioms: [propext, Quot.sound]
'Netlab.C15_modules' depends on axioms: [propext, Classical.choice, Quot.sound]
'Netlab.C16_templates' depends on axioms: [propext, Classical.choice, Quot.sound]
'Netlab.C16_removal' depends on axioms: [propext, Classical.choice, Quot.sound]
'Netlab.C16_order_kept' depends on axioms: [propext, Classical.choice, Quot.sound]
'Netlab.C16_group_all_is_not_outermost' depends on axioms: [propext, Classical.choice, Quot.sound]
'Netlab.C17_leaves' depends on axioms: [propext, Classical.choice, Quot.sound]
'Netlab.C17_right_wins' depends on axioms: [propext, Classical.choice, Quot.sound]
'Netlab.C17_keys' depends on axioms: [propext, Classical.choice, Quot.sound]
'Netlab.C17_empty' depends on axioms: [propext, Classical.choice, Quot.sound]
'Netlab.C17_idempotent' depends on axioms: [propext, Classical.choice, Quot.sound]
'Netlab.C17_associative' depends on axioms: [propext, Classical.choice, Quot.sound]
'Netlab.C17_not_associative' depends on axioms: [propext, Classical.choice, Quot.sound]
'Netlab.C18_most_specific_scope_wins' depends on axioms: [propext, Classical.choice, Quot.sound]
'Netlab.C18_no_other_source' depends on axioms: [propext, Classical.choice, Quot.sound]
'Netlab.C18_not_propagated' depends on axioms: [propext, Classical.choice, Quot.sound]
'Netlab.C18_propagated' depends on axioms: [propext, Classical.choice, Quot.sound]
'Netlab.C18_global' depends on axioms: [propext, Classical.choice, Quot.sound]
'Netlab.C19_global_list' depends on axioms: [propext, Classical.choice, Quot.sound]
'Netlab.C19_errors_exact' depends on axioms: [propext, Quot.sound]
'Netlab.C19_accepted_iff' depends on axioms: [propext, Classical.choice, Quot.sound]
'Netlab.C20_every_vlan_has_id' depends on axioms: [propext, Classical.choice, Quot.sound]
'Netlab.C20_static_id_kept' depends on axioms: [propext, Classical.choice, Quot.sound]
'Netlab.C20_copy_has_global_id' depends on axioms: [propext, Classical.choice, Quot.sound]
'Netlab.C20_auto_id_unique' depends on axioms: [propext, Classical.choice, Quot.sound]
'Netlab.C20_vni_kept' depends on axioms: [propext, Classical.choice, Quot.sound]
'Netlab.C20_listed_vlan_has_vni' depends on axioms: [propext, Classical.choice, Quot.sound]
'Netlab.C20_auto_vni_unique' depends on axioms: [propext, Classical.choice, Quot.sound]
'Netlab.C20_vni_above_limit' depends on axioms: [propext, Quot.sound]
'Netlab.C21_every_vrf_has_id_rd' depends on axioms: [propext, Classical.choice, Quot.sound]
'Netlab.C21_static_values_kept' depends on axioms: [propext, Classical.choice, Quot.sound]
'Netlab.C21_copy_gets_global_values' depends on axioms: [propext, Classical.choice, Quot.sound]
'Netlab.C21_auto_id_unique' depends on axioms: [propext, Classical.choice, Quot.sound]
'Netlab.C21_auto_rd_unique' depends on axioms: [propext, Classical.choice, Quot.sound]
'Netlab.C21_auto_rd_format' depends on axioms: [propext, Classical.choice, Quot.sound]
'Netlab.C21_autos_differ' depends on axioms: [propext, Classical.choice, Quot.sound]
'Netlab.C21_static_rd_not_registered' depends on axioms: [propext, Quot.sound]
'Netlab.C21_node_rd_overwritten' depends on axioms: [propext, Quot.sound]
'Netlab.C21_null_rd_stays_null' depends on axioms: [propext, Classical.choice, Quot.sound]
'Netlab.C21_rt_default' depends on axioms: [propext, Classical.choice, Quot.sound]
'Netlab.C21_rt_resolved' depends on axioms: [propext, Classical.choice, Quot.sound]
'Netlab.C22_transit_vnis_differ' depends on axioms: [propext, Classical.choice, Quot.sound]
'Netlab.C22_transit_vni_values' depends on axioms: [propext, Classical.choice, Quot.sound]
'Netlab.C22_first_auto_vni_clashes' depends on axioms: [propext, Quot.sound]
'Netlab.C22_mpls_transit_vni_error' depends on axioms: [propext, Quot.sound]
'Netlab.C22_mpls_transit_vni_unchanged' depends on axioms: [propext, Quot.sound]
'Netlab.C23_ibgp_sessions_exact' depends on axioms: [propext, Classical.choice, Quot.sound]
'Netlab.C23_ibgp_symmetric' depends on axioms: [propext, Classical.choice, Quot.sound]
'Netlab.C23_ibgp_no_self_no_duplicates' depends on axioms: [propext, Classical.choice, Quot.sound]
'Netlab.C23_ibgp_session_data' depends on axioms: [propext, Classical.choice, Quot.sound]
'Netlab.C23_ibgp_default_mesh' depends on axioms: [propext, Classical.choice, Quot.sound]
'Netlab.C23_ibgp_one_sided' depends on axioms: [propext]
'Netlab.C24_ebgp_sessions_sound' depends on axioms: [propext, Classical.choice, Quot.sound]
'Netlab.C24_ebgp_sessions_exact' depends on axioms: [propext, Classical.choice, Quot.sound]
'Netlab.C24_ebgp_symmetric' depends on axioms: [propext, Classical.choice, Quot.sound]
'Netlab.C24_ebgp_neighbor_list' depends on axioms: [propext, Classical.choice, Quot.sound]
'Netlab.C24_disabled_end_one_sided' depends on axioms: [propext]
'Netlab.C24_no_common_address_family' depends on axioms: [propext]
'Netlab.C24_unnumbered_second_neighbor_error' depends on axioms: [propext]
'Netlab.C25_normalized_entries' depends on axioms: [propext, Quot.sound]
'Netlab.C25_normalize_idempotent' depends on axioms: [propext, Quot.sound]
'Netlab.C25_merge_entries' depends on axioms: [propext, Quot.sound]
'Netlab.C25_merge_nothing' depends on axioms: [propext, Classical.choice, Quot.sound]
'Netlab.C25_import_object' depends on axioms: [propext, Classical.choice, Quot.sound]
'Netlab.C25_missing_object' depends on axioms: [propext, Quot.sound]
'Netlab.C25_merge_strictly_ordered' depends on axioms: [propext, Quot.sound]
'Netlab.C25_import_idempotent' depends on axioms: [propext, Classical.choice, Quot.sound]
'Netlab.C25_not_sorted_when_unchanged' depends on axioms: [propext, Quot.sound]
'Netlab.C25_global_community_import_crashes' depends on axioms: [propext, Quot.sound]
'Netlab.C26_prefix_lists' depends on axioms: [propext, Quot.sound]
'Netlab.C26_limit_out_of_range' depends on axioms: [propext, Quot.sound]
'Netlab.C26_limit_accepted' depends on axioms: [propext, Quot.sound]
'Netlab.C26_empty_list' does not depend on any axioms
'Netlab.C26_limit_dictionary_left' does not depend on any axioms
'Netlab.C27_aspath_numbers' depends on axioms: [propext, Classical.choice, Quot.sound]
'Netlab.C27_expanded_iff_regexp' depends on axioms: [propext, Classical.choice, Quot.sound]
'Netlab.C27_community_values' depends on axioms: [propext, Classical.choice, Quot.sound]
'Netlab.C28_includes_expanded' depends on axioms: [propext, Classical.choice, Quot.sound]
'Netlab.C28_loop_reported' depends on axioms: [propext, Classical.choice, Quot.sound]
'Netlab.C28_missing_reported' depends on axioms: [propext, Quot.sound]
'Netlab.C28_depth_19_accepted' depends on axioms: [propext, Classical.choice, Quot.sound]
'Netlab.C28_included_nexthop' depends on axioms: [propext, Classical.choice, Quot.sound]
'Netlab.C28_depth_20_rejected' does not depend on any axioms
'Netlab.C29_link_settings' depends on axioms: [propext]
'Netlab.C29_enabled_iff' depends on axioms: [propext, Classical.choice, Quot.sound]
'Netlab.C29_link_off' depends on axioms: [propext, Quot.sound]
'Netlab.C29_checked' depends on axioms: [propext, Classical.choice, Quot.sound]
'Netlab.C29_interface_request' depends on axioms: [propext, Quot.sound]
'Netlab.C29_interfaces_of_enabled_link' depends on axioms: [propext, Quot.sound]
'Netlab.C29_gateway_address' depends on axioms: [propext, Classical.choice, Quot.sound]
'Netlab.C29_gateway_on_broadcast_address' depends on axioms: [propext]
'Netlab.C29_gateway_id_not_node_id' depends on axioms: [propext, Classical.choice, Quot.sound]
'Netlab.C29_protocol_parameters' depends on axioms: [propext, Classical.choice, Quot.sound]
'Netlab.C30_passive' depends on axioms: [propext, Classical.choice, Quot.sound]
'Netlab.C30_explicit_wins' depends on axioms: [propext, Classical.choice, Quot.sound]
'Netlab.C31_precedence' depends on axioms: [propext, Classical.choice, Quot.sound]
'Netlab.C31_protocols_agree' depends on axioms: [propext, Classical.choice, Quot.sound]
'Netlab.C31_pool_ids_distinct' depends on axioms: [propext, Classical.choice, Quot.sound]
'Netlab.C31_unique_loop_ends' depends on axioms: [propext, Classical.choice, Quot.sound]
'Netlab.C31_unique_vrf_ids' depends on axioms: [propext, Classical.choice, Quot.sound]
'Netlab.C32_accepted_iff' depends on axioms: [propext, Classical.choice, Quot.sound]
'Netlab.C32_string_in_range' depends on axioms: [propext, Classical.choice, Quot.sound]
'Netlab.C32_canonical' depends on axioms: [propext, Classical.choice, Quot.sound]
'Netlab.C32_injective' depends on axioms: [propext, Classical.choice, Quot.sound]
'Netlab.C32_complete' depends on axioms: [propext, Classical.choice, Quot.sound]
'Netlab.C32_integers' depends on axioms: [propext, Classical.choice, Quot.sound]
'Netlab.C32_zero_accepted' depends on axioms: [propext, Classical.choice, Quot.sound]
'Netlab.C32_other_values' depends on axioms: [propext, Classical.choice, Quot.sound]
'Netlab.C33_integers' depends on axioms: [propext, Quot.sound]
'Netlab.C33_accepted_in_range' depends on axioms: [propext, Quot.sound]
'Netlab.C33_strings' depends on axioms: [propext, Quot.sound]
'Netlab.C33_string_out_of_range' depends on axioms: [propext, Classical.choice, Quot.sound]
'Netlab.C33_bool_rejected' depends on axioms: [propext]
'Netlab.C34_unknown_reported' depends on axioms: [propext, Classical.choice, Quot.sound]
'Netlab.C34_valid_has_no_unknown' depends on axioms: [propext, Classical.choice, Quot.sound]
'Netlab.C34_succeeds_only_if' depends on axioms: [propext, Classical.choice, Quot.sound]
'Netlab.C34_no_false_alarm' depends on axioms: [propext, Classical.choice, Quot.sound]
'Netlab.C34_false_removed' depends on axioms: [propext, Classical.choice, Quot.sound]
'Netlab.C34_alternative_accepted' depends on axioms: [propext, Classical.choice, Quot.sound]
'Netlab.C34_single_value' depends on axioms: [propext, Classical.choice, Quot.sound]
'Netlab.C34_false_empty' depends on axioms: [propext, Classical.choice, Quot.sound]
'Netlab.C34_type_options' depends on axioms: [propext, Classical.choice, Quot.sound]
'Netlab.C34_module_false' depends on axioms: [propext, Classical.choice, Quot.sound]
'Netlab.C35_every_string' depends on axioms: [propext, Classical.choice, Quot.sound]
'Netlab.C35_members' depends on axioms: [propext, Classical.choice, Quot.sound]
'Netlab.C35_errors' depends on axioms: [propext, Classical.choice, Quot.sound]
'Netlab.C35_once' depends on axioms: [propext, Classical.choice, Quot.sound]
'Netlab.C35_order' depends on axioms: [propext, Classical.choice, Quot.sound]
'Netlab.C35_prune' depends on axioms: [propext, Quot.sound]
'Netlab.C35_duplicate_node' depends on axioms: [propext, Classical.choice, Quot.sound]
'Netlab.C36_down_race' depends on axioms: [propext, Classical.choice, Quot.sound]
'Netlab.C36_dry_run_down_forgets' depends on axioms: [propext]
'Netlab.C36_crash_mid_write' depends on axioms: [propext]
'Netlab.C36_unlocked_read' depends on axioms: [propext]
'Netlab.C36_owner_kept' depends on axioms: [propext, Classical.choice, Quot.sound]
'Netlab.C36_one_directory' depends on axioms: [propext, Classical.choice, Quot.sound]
'Netlab.C36_removed_by_owner' depends on axioms: [propext, Classical.choice, Quot.sound]
'Netlab.C37_started_lab_is_locked' depends on axioms: [propext]
'Netlab.C37_files_protected' depends on axioms: [propext]
'Netlab.C37_concurrent_up' depends on axioms: [propext]
'Netlab.C37_concurrent_down' depends on axioms: [propext]
'Netlab.C37_abort_unlocks' depends on axioms: [propext]
'Netlab.C38_attempts' depends on axioms: [propext, Classical.choice, Quot.sound]
'Netlab.C38_test_result' depends on axioms: [propext, Classical.choice, Quot.sound]
'Netlab.C38_terminates' depends on axioms: [propext, Quot.sound]
'Netlab.C38_exit_code' depends on axioms: [propext, Classical.choice, Quot.sound]
'Netlab.C38_all_tests' depends on axioms: [propext, Quot.sound]
'Netlab.C38_summary' depends on axioms: [propext, Classical.choice, Quot.sound]
'Netlab.C38_skipped' depends on axioms: [propext, Quot.sound]
'Netlab.C38_suzieq_any' does not depend on any axioms
'Netlab.C38_exec_failure_lost' does not depend on any axioms
'Netlab.C38_suzieq_error_passes' does not depend on any axioms
'Netlab.C39_nodes' depends on axioms: [propext, Classical.choice, Quot.sound]
'Netlab.C39_node_limit' depends on axioms: [propext, Classical.choice, Quot.sound]
'Netlab.C39_links' depends on axioms: [propext, Classical.choice, Quot.sound]
'Netlab.C39_groups' depends on axioms: [propext, Classical.choice, Quot.sound]
'Netlab.C39_link_ends' depends on axioms: [propext, Classical.choice, Quot.sound]
'Netlab.C39_terminates' depends on axioms: [propext, Classical.choice, Quot.sound]
'Netlab.C39_recursive_component' depends on axioms: [propext]
'Netlab.C39_dangling_link' depends on axioms: [propext]
'Netlab.C40_nodes' depends on axioms: [propext, Classical.choice, Quot.sound]
'Netlab.C40_links' depends on axioms: [propext, Classical.choice, Quot.sound]
'Netlab.C40_groups' depends on axioms: [propext, Classical.choice, Quot.sound]
'Netlab.C40_shared_group' depends on axioms: [propext, Classical.choice, Quot.sound]
'Netlab.C40_same_names' depends on axioms: [propext, Classical.choice, Quot.sound]
'Netlab.C40_params' depends on axioms: [propext, Classical.choice, Quot.sound]
'Netlab.C40_node_params' depends on axioms: [propext, Classical.choice, Quot.sound]
'Netlab.C40_group_params' depends on axioms: [propext, Classical.choice, Quot.sound]
'Netlab.C40_expand' depends on axioms: [propext, Classical.choice, Quot.sound]
'Netlab.C41_links' depends on axioms: [propext, Classical.choice, Quot.sound]
'Netlab.C41_no_links_left' depends on axioms: [propext, Classical.choice, Quot.sound]
'Netlab.C41_names' depends on axioms: [propext, Classical.choice, Quot.sound]
'Netlab.C41_nodes' depends on axioms: [propext, Classical.choice, Quot.sound]
'Netlab.C41_groups' depends on axioms: [propext, Classical.choice, Quot.sound]
'Netlab.C41_lag_link_lost' depends on axioms: [propext, Classical.choice, Quot.sound]
'Netlab.C41_truncated_names' depends on axioms: [propext, Classical.choice, Quot.sound]
'Netlab.C42_pairs' depends on axioms: [propext, Classical.choice, Quot.sound]
'Netlab.C42_two_peers' does not depend on any axioms
'Netlab.C42_pool' depends on axioms: [propext, Quot.sound]
'Netlab.C42_pool_distinct' depends on axioms: [propext, Classical.choice, Quot.sound]
'Netlab.C42_loopback' depends on axioms: [propext]
'Netlab.C42_backup' depends on axioms: [propext]
'Netlab.C42_same_mac' depends on axioms: [propext]
'Netlab.C42_different_mac' depends on axioms: [propext, Quot.sound]
'Netlab.C42_user_mac' depends on axioms: [propext]
'Netlab.C42_mac_wraps' does not depend on any axioms
'Netlab.C43_terminates' depends on axioms: [propext, Classical.choice, Quot.sound]
'Netlab.C43_closest_ancestor_wins' depends on axioms: [propext, Classical.choice, Quot.sound]
'Netlab.C43_template_not_inherited' depends on axioms: [propext, Classical.choice, Quot.sound]
'Netlab.C43_loop_not_reported' depends on axioms: [propext, Classical.choice, Quot.sound]
'Netlab.C44_first' depends on axioms: [propext, Quot.sound]
'Netlab.C44_search_path' depends on axioms: [propext, Classical.choice, Quot.sound]
'Netlab.C44_find_in_search_path' depends on axioms: [propext, Classical.choice, Quot.sound]
'Netlab.C44_entries' depends on axioms: [propext, Classical.choice, Quot.sound]
'Netlab.C44_default_order' depends on axioms: [propext, Quot.sound]
'Netlab.C44_package_topology_path_lost' depends on axioms: [propext, Classical.choice, Quot.sound]
'Netlab.C45_link_state' depends on axioms: [propext, Quot.sound]
'Netlab.C45_node' depends on axioms: [propext, Quot.sound]
'Netlab.C45_multiprotocol' depends on axioms: [propext, Quot.sound]
'Netlab.C45_no_module_not_disabled' depends on axioms: [propext]
'Netlab.C45_false_families_enable' depends on axioms: [propext]
'Netlab.C46_link_addresses' depends on axioms: [propext, Classical.choice, Quot.sound]
'Netlab.C46_vlan_addresses' depends on axioms: [propext, Classical.choice, Quot.sound]
'Netlab.C46_no_repeats' depends on axioms: [propext, Classical.choice, Quot.sound]
'Netlab.C46_only_reserved' depends on axioms: [propext, Classical.choice, Quot.sound]
'Netlab.C46_pools' depends on axioms: [propext, Classical.choice, Quot.sound]
'Netlab.C46_prefix' depends on axioms: [propext, Classical.choice, Quot.sound]
'Netlab.C46_gateway' depends on axioms: [propext, Classical.choice, Quot.sound]
'Netlab.C46_other_access_link' depends on axioms: [propext]
'Netlab.C47_no_duplicates' depends on axioms: [propext, Classical.choice, Quot.sound]
'Netlab.C47_in_subnet' depends on axioms: [propext, Classical.choice, Quot.sound]
'Netlab.C47_unique' depends on axioms: [propext, Classical.choice, Quot.sound]
'Netlab.C47_static_kept' depends on axioms: [propext, Quot.sound]
'Netlab.C47_every_node' depends on axioms: [propext, Quot.sound]
'Netlab.C47_success' depends on axioms: [propext, Classical.choice, Quot.sound]
'Netlab.C47_broadcast_assigned' depends on axioms: [propext]
'Netlab.C47_overflow_reported' depends on axioms: [propext, Classical.choice, Quot.sound]
'Netlab.C48_first_source_wins' depends on axioms: [propext, Classical.choice, Quot.sound]
'Netlab.C48_no_other_source' depends on axioms: [propext, Classical.choice, Quot.sound]
'Netlab.C48_sources' depends on axioms: [propext]
'Netlab.C48_empty_list_ignored' depends on axioms: [propext]
'Netlab.C48_environment_set' depends on axioms: [propext, Classical.choice, Quot.sound]
'Netlab.C48_environment_wins' depends on axioms: [propext, Classical.choice, Quot.sound]
'Netlab.C48_environment_lost' depends on axioms: [propext, Classical.choice, Quot.sound]
'Netlab.C48_plugin_defaults' depends on axioms: [propext, Classical.choice, Quot.sound]
'Netlab.C49_primary' depends on axioms: [propext, Quot.sound]
'Netlab.C49_nodes_unchanged' depends on axioms: [propext, Quot.sound]
'Netlab.C49_mark' depends on axioms: [propext, Classical.choice, Quot.sound]
'Netlab.C49_select' depends on axioms: [propext, Classical.choice, Quot.sound]
'Netlab.C50_participants' depends on axioms: [propext, Classical.choice, Quot.sound]
'Netlab.C50_flood_list' depends on axioms: [propext, Classical.choice, Quot.sound]
'Netlab.C50_node_list' depends on axioms: [propext, Classical.choice, Quot.sound]
'Netlab.C50_disabled_vlan_flooded' depends on axioms: [propext, Classical.choice, Quot.sound]
'Netlab.C51_duplicate_check_exact' depends on axioms: [propext, Quot.sound]
'Netlab.C52_effective_mtu' depends on axioms: [propext, Classical.choice, Quot.sound]
'Netlab.C52_system_mtu_not_repeated' depends on axioms: [propext, Classical.choice, Quot.sound]
'Netlab.C53_bridge_names_unique' depends on axioms: [propext, Classical.choice, Quot.sound]
'Netlab.C53_bridge_name_length' depends on axioms: [propext, Classical.choice, Quot.sound]
'Netlab.C53_generated_name_too_long' depends on axioms: [propext, Classical.choice, Quot.sound]
'Netlab.C54_consistent_order' depends on axioms: [propext, Classical.choice, Quot.sound]
'Netlab.C54_error_iff_contradiction' depends on axioms: [propext, Classical.choice, Quot.sound]
'Netlab.C55_rr_cluster_ids' depends on axioms: [propext, Classical.choice, Quot.sound]
'Netlab.C55_lowest_is_textual' depends on axioms: [propext, Classical.choice, Quot.sound]
'Netlab.C56_global_interfaces' depends on axioms: [propext, Classical.choice, Quot.sound]
'Netlab.C56_vrf_instances' depends on axioms: [propext, Classical.choice, Quot.sound]
'Netlab.C56_address_families' depends on axioms: [propext, Classical.choice, Quot.sound]
'Netlab.C56_removed_iff' depends on axioms: [propext, Classical.choice, Quot.sound]
'Netlab.C57_required_reported' depends on axioms: [propext, Classical.choice, Quot.sound]
'Netlab.C57_conflict_reported' depends on axioms: [propext, Classical.choice, Quot.sound]
'Netlab.C57_conflict_in_value_reported' depends on axioms: [propext, Classical.choice, Quot.sound]
'Netlab.C57_module_reported' depends on axioms: [propext, Classical.choice, Quot.sound]
'Netlab.C58_all_links' depends on axioms: [propext, Classical.choice, Quot.sound]
'Netlab.C58_known_nodes' depends on axioms: [propext, Classical.choice, Quot.sound]
'Netlab.C58_prefix_accepted' depends on axioms: [propext, Classical.choice, Quot.sound]
'Netlab.C58_syntaxes' depends on axioms: [propext, Classical.choice, Quot.sound]
'Netlab.C58_names' depends on axioms: [propext, Classical.choice, Quot.sound]
'Netlab.C59_sides' depends on axioms: [propext, Classical.choice, Quot.sound]
'Netlab.C59_unsupported_accepted' does not depend on any axioms
'Netlab.C59_mlag_accepted' depends on axioms: [propext, Quot.sound]
'Netlab.C59_interfaces' depends on axioms: [propext, Classical.choice, Quot.sound]
'Netlab.C59_mlag_side' depends on axioms: [propext, Classical.choice, Quot.sound]
'Netlab.C59_unique' depends on axioms: [propext, Classical.choice, Quot.sound]
'Netlab.C59_member_number_collision' depends on axioms: [propext, Quot.sound]
'Netlab.C59_mlag_same' depends on axioms: [propext, Classical.choice, Quot.sound]
'Netlab.C59_mlag_mismatch' depends on axioms: [propext, Quot.sound]
'Netlab.C59_requested' depends on axioms: [propext, Classical.choice, Quot.sound]
'Netlab.C59_members' depends on axioms: [propext, Quot.sound]
'Netlab.C59_nonmembers' depends on axioms: [propext, Quot.sound]
'Netlab.C59_member_captured' does not depend on any axioms
'Netlab.C59_supported' depends on axioms: [propext, Quot.sound]
'Netlab.C59_lag_between_peers' does not depend on any axioms
'Netlab.C60_has_nexthop' depends on axioms: [propext, Classical.choice, Quot.sound]
'Netlab.C60_node_sound' depends on axioms: [propext, Classical.choice, Quot.sound]
'Netlab.C60_node_complete' depends on axioms: [propext, Classical.choice, Quot.sound]
'Netlab.C60_node_remote' depends on axioms: [propext, Classical.choice, Quot.sound]
'Netlab.C60_addr_sound' depends on axioms: [propext, Classical.choice, Quot.sound]
'Netlab.C60_no_crash' depends on axioms: [propext, Quot.sound]
'Netlab.C60_covered' depends on axioms: [propext, Classical.choice, Quot.sound]
'Netlab.C60_vrf' depends on axioms: [propext, Quot.sound]
'Netlab.C60_gateway_sound' depends on axioms: [propext, Classical.choice, Quot.sound]
'Netlab.C60_gateway_stable' depends on axioms: [propext, Classical.choice, Quot.sound]
'Netlab.C60_ipv6_route_lost' depends on axioms: [propext]
'Netlab.C60_crash' depends on axioms: [propext]
'Netlab.C60_not_an_address' depends on axioms: [propext]
'Netlab.C61_default_routes' depends on axioms: [propext, Quot.sound]
'Netlab.C61_no_errors' depends on axioms: [propext, Classical.choice, Quot.sound]
'Netlab.C61_host_routes' depends on axioms: [propext, Quot.sound]
'Netlab.C61_no_repeats' depends on axioms: [propext, Quot.sound]
'Netlab.C61_duplicate_and_ignored' does not depend on any axioms
'Netlab.C62_defined' depends on axioms: [propext, Classical.choice, Quot.sound]
'Netlab.C62_no_mix' depends on axioms: [propext, Classical.choice, Quot.sound]
'Netlab.C62_native_on_trunk' depends on axioms: [propext, Classical.choice, Quot.sound]
'Netlab.C62_one_access' depends on axioms: [propext, Classical.choice, Quot.sound]
'Netlab.C62_native_in_trunk' depends on axioms: [propext, Classical.choice, Quot.sound]
'Netlab.C62_native_agreed' depends on axioms: [propext, Classical.choice, Quot.sound]
'Netlab.C62_trunk_peers' depends on axioms: [propext, Classical.choice, Quot.sound]
'Netlab.C62_trunk_everywhere' depends on axioms: [propext, Classical.choice, Quot.sound]
'Netlab.C62_access_accepted' depends on axioms: [propext, Classical.choice, Quot.sound]
'Netlab.C62_trunk_accepted' depends on axioms: [propext, Classical.choice, Quot.sound]
'Netlab.C62_two_natives' depends on axioms: [propext]
'Netlab.C62_local_names' depends on axioms: [propext]
'Netlab.C62_native_unchecked' depends on axioms: [propext, Classical.choice, Quot.sound]
'Netlab.C63_mode' depends on axioms: [propext, Classical.choice, Quot.sound]
'Netlab.C63_routed' depends on axioms: [propext, Classical.choice, Quot.sound]
'Netlab.C63_one_subnet' depends on axioms: [propext, Classical.choice, Quot.sound]
'Netlab.C63_members' depends on axioms: [propext, Classical.choice, Quot.sound]
'Netlab.C63_member_ifs' depends on axioms: [propext, Classical.choice, Quot.sound]
'Netlab.C64_one_svi' depends on axioms: [propext, Classical.choice, Quot.sound]
'Netlab.C64_interfaces' depends on axioms: [propext, Classical.choice, Quot.sound]
'Netlab.C64_svi_data' depends on axioms: [propext, Classical.choice, Quot.sound]
'Netlab.C64_vlan_data' depends on axioms: [propext, Classical.choice, Quot.sound]
'Netlab.C64_ifindex' depends on axioms: [propext, Classical.choice, Quot.sound]
'Netlab.C64_bridge_groups' depends on axioms: [propext, Classical.choice, Quot.sound]
'Netlab.C64_bridge_address' depends on axioms: [propext, Classical.choice, Quot.sound]
'Netlab.C65_global' depends on axioms: [propext, Classical.choice, Quot.sound]
'Netlab.C65_local' depends on axioms: [propext, Classical.choice, Quot.sound]
'Netlab.C65_stub' depends on axioms: [propext, Classical.choice, Quot.sound]
'Netlab.C65_attached_twice' does not depend on any axioms
'Netlab.C66_interfaces' depends on axioms: [propext, Classical.choice, Quot.sound]
'Netlab.C66_unique_names' depends on axioms: [propext, Classical.choice, Quot.sound]
'Netlab.C66_mixed' depends on axioms: [propext, Classical.choice, Quot.sound]
'Netlab.C66_native_trunk' depends on axioms: [propext, Classical.choice, Quot.sound]
'Netlab.C66_supported' depends on axioms: [propext, Classical.choice, Quot.sound]
'Netlab.C67_ldp_interfaces' depends on axioms: [propext, Classical.choice, Quot.sound]
'Netlab.C67_ldp_true_crashes' depends on axioms: [propext, Classical.choice, Quot.sound]
'Netlab.C67_ldp_false_ignored' does not depend on any axioms
'Netlab.C67_ldp_needs_ipv4' does not depend on any axioms
'Netlab.C67_ldp_support_not_checked' depends on axioms: [propext]
'Netlab.C67_bgp_neighbors' depends on axioms: [propext, Classical.choice, Quot.sound]
'Netlab.C67_vpn_on_ebgp_session' depends on axioms: [propext]
'Netlab.C67_6pe_symmetric' depends on axioms: [propext]
'Netlab.C67_disabled_af_disables_all' depends on axioms: [propext, Classical.choice, Quot.sound]
'Netlab.C67_supported' depends on axioms: [propext, Classical.choice, Quot.sound]
'Netlab.C67_6pe_needs_lu_support' depends on axioms: [propext]
'Netlab.C67_6pe_types_not_checked' depends on axioms: [propext, Quot.sound]
'Netlab.C67_accepted' depends on axioms: [propext, Classical.choice, Quot.sound]
'Netlab.C67_no_ldp' depends on axioms: [propext]
'Netlab.C68_session_attributes' depends on axioms: [propext, Classical.choice, Quot.sound]
'Netlab.C68_local_as_sessions' does not depend on any axioms
'Netlab.C69_route_servers' depends on axioms: [propext, Classical.choice, Quot.sound]
'Netlab.C69_interface_rs_depends_on_order' does not depend on any axioms
'Netlab.C69_removed_on_one_side' does not depend on any axioms
'Netlab.C70_accepted_iff' depends on axioms: [propext, Classical.choice, Quot.sound]
'Netlab.C70_as_numbers' depends on axioms: [propext, Classical.choice, Quot.sound]
'Netlab.C71_link_roles' depends on axioms: [propext, Classical.choice, Quot.sound]
'Netlab.C71_vlan_roles' depends on axioms: [propext, Classical.choice, Quot.sound]
'Netlab.C71_no_role' depends on axioms: [propext, Classical.choice, Quot.sound]
'Netlab.C71_node_vlan_has_no_role' depends on axioms: [propext, Classical.choice, Quot.sound]
'Netlab.C72_advertised_prefixes' depends on axioms: [propext, Quot.sound]
'Netlab.C72_address_families' depends on axioms: [propext, Quot.sound]
'Netlab.C72_activation' depends on axioms: [propext, Quot.sound]
'Netlab.C72_originated' depends on axioms: [propext, Quot.sound]
'Netlab.C72_localas_ibgp_not_active' depends on axioms: [propext]
'Netlab.C73_communities' depends on axioms: [propext, Classical.choice, Quot.sound]
'Netlab.C73_accepted_iff' depends on axioms: [propext, Classical.choice, Quot.sound]
'Netlab.C73_unsupported_keyword_accepted' does not depend on any axioms
'Netlab.C74_services' depends on axioms: [propext, Classical.choice, Quot.sound]
'Netlab.C74_targets_differ' depends on axioms: [propext, Classical.choice, Quot.sound]
'Netlab.C74_configured_evi_may_clash' depends on axioms: [propext]
'Netlab.C75_neighbors' depends on axioms: [propext, Classical.choice, Quot.sound]
'Netlab.C75_symmetric' depends on axioms: [propext, Classical.choice, Quot.sound]
'Netlab.C75_lists' depends on axioms: [propext, Classical.choice, Quot.sound]
'Netlab.C75_route_distinguishers' depends on axioms: [propext, Classical.choice, Quot.sound]
'Netlab.C75_distinguishers_differ' depends on axioms: [propext, Classical.choice, Quot.sound]
'Netlab.C75_accepted_iff' depends on axioms: [propext, Classical.choice, Quot.sound]
'Netlab.C75_irb' depends on axioms: [propext, Classical.choice, Quot.sound]
'Netlab.C75_vlan_and_vrf_share_rd' depends on axioms: [propext, Classical.choice, Quot.sound]
'Netlab.C75_rejected_due_to_other_vrf' depends on axioms: [propext, Classical.choice, Quot.sound]
'Netlab.C76_sessions' depends on axioms: [propext, Classical.choice, Quot.sound]
'Netlab.C76_later_links_not_found' depends on axioms: [propext, Quot.sound]
'Netlab.C76_nodes' depends on axioms: [propext, Classical.choice, Quot.sound]
'Netlab.C76_accepted_iff' depends on axioms: [propext, Classical.choice, Quot.sound]
'Netlab.C76_missing_loopbacks_accepted' does not depend on any axioms
'Netlab.C76_ipv6_list_wins' does not depend on any axioms
'Netlab.C77_reference_lists' depends on axioms: [propext, Classical.choice, Quot.sound]
'Netlab.C78_neighbors' depends on axioms: [propext, Classical.choice, Quot.sound]
'Netlab.C78_user_policies' depends on axioms: [propext, Classical.choice, Quot.sound]
'Netlab.C78_accepted_iff' depends on axioms: [propext, Classical.choice, Quot.sound]
'Netlab.C78_zero_ignored' depends on axioms: [propext]
'Netlab.C78_localas_ibgp_keeps_attributes' depends on axioms: [propext]
'Netlab.C78_order_of_interfaces' depends on axioms: [propext]
'Netlab.C78_same_name_replaced' depends on axioms: [propext]
'Netlab.C79_normalized' depends on axioms: [propext, Classical.choice, Quot.sound]
'Netlab.C79_normalization_fails_iff' depends on axioms: [propext, Classical.choice, Quot.sound]
'Netlab.C79_empty_set_crashes' depends on axioms: [propext]
'Netlab.C79_device_support_iff' depends on axioms: [propext, Classical.choice, Quot.sound]
'Netlab.C79_accepted' depends on axioms: [propext, Classical.choice, Quot.sound]
'Netlab.C79_accepted_iff' depends on axioms: [propext, Classical.choice, Quot.sound]
'Netlab.C79_missing_policy_crashes' depends on axioms: [propext, Classical.choice, Quot.sound]
'Netlab.C79_global_community_crashes' depends on axioms: [propext, Quot.sound]
'Netlab.C80_created' depends on axioms: [propext, Classical.choice, Quot.sound]
'Netlab.C80_precheck_iff' depends on axioms: [propext, Classical.choice, Quot.sound]
'Netlab.C80_names_differ' depends on axioms: [propext, Classical.choice, Quot.sound]
'Netlab.C80_accepted_iff' depends on axioms: [propext, Classical.choice, Quot.sound]
'Netlab.C80_members' depends on axioms: [propext, Classical.choice, Quot.sound]
'Netlab.C80_as_accepted_iff' depends on axioms: [propext, Classical.choice, Quot.sound]
'Netlab.C80_as_groups' depends on axioms: [propext, Classical.choice, Quot.sound]
'Netlab.C80_default_members_lost' depends on axioms: [propext, Classical.choice, Quot.sound]
'Netlab.C80_node_group_clash' depends on axioms: [propext, Classical.choice, Quot.sound]
'Netlab.C81_default_type' depends on axioms: [propext, Quot.sound]
'Netlab.C81_type_kept' depends on axioms: [propext]
'Netlab.C81_type_overridden' depends on axioms: [propext]
'Netlab.C81_default_accepted' depends on axioms: [propext, Classical.choice, Quot.sound]
'Netlab.C81_role' depends on axioms: [propext, Classical.choice, Quot.sound]
'Netlab.C81_accepted' depends on axioms: [propext, Classical.choice, Quot.sound]
'Netlab.C81_group_links' depends on axioms: [propext, Classical.choice, Quot.sound]
'Netlab.C81_groups_accepted_iff' depends on axioms: [propext, Classical.choice, Quot.sound]
'Netlab.C81_disabled_member_kept' depends on axioms: [propext, Classical.choice, Quot.sound]
'Netlab.C81_nested_group_lost' depends on axioms: [propext, Classical.choice, Quot.sound]
'Netlab.C81_group_nodes_lost' depends on axioms: [propext, Classical.choice, Quot.sound]
'Netlab.C81_member_crash' depends on axioms: [propext, Classical.choice, Quot.sound]
'Netlab.C82_removed' depends on axioms: [propext, Classical.choice, Quot.sound]
'Netlab.C82_accepted_iff' depends on axioms: [propext, Classical.choice, Quot.sound]
'Netlab.C82_indices' depends on axioms: [propext, Classical.choice, Quot.sound]
'Netlab.C82_families' depends on axioms: [propext, Classical.choice, Quot.sound]
'Netlab.C82_loopbacks' depends on axioms: [propext, Classical.choice, Quot.sound]
'Netlab.C82_no_loopbacks' depends on axioms: [propext, Classical.choice, Quot.sound]
'Netlab.C82_pool_addresses' depends on axioms: [propext, Quot.sound]
'Netlab.C82_route_leaking' depends on axioms: [propext, Classical.choice, Quot.sound]
'Netlab.C82_vpn_families' depends on axioms: [propext, Classical.choice, Quot.sound]
'Netlab.C82_loopback_no_vpn' depends on axioms: [propext]
'Netlab.C82_loopback_lost' depends on axioms: [propext]
'Netlab.C82_false_loopback' depends on axioms: [propext]
'Netlab.C83_accepted_iff' depends on axioms: [propext, Classical.choice, Quot.sound]
'Netlab.C83_imports' depends on axioms: [propext, Classical.choice, Quot.sound]
'Netlab.C83_node_accepted_iff' depends on axioms: [propext, Classical.choice, Quot.sound]
'Netlab.C83_node' depends on axioms: [propext, Classical.choice, Quot.sound]
'Netlab.C83_removed' depends on axioms: [propext, Classical.choice, Quot.sound]
'Netlab.C83_removed_iff' depends on axioms: [propext, Classical.choice, Quot.sound]
'Netlab.C83_default_routes' depends on axioms: [propext, Classical.choice, Quot.sound]
'Netlab.C83_disabled_rejected' depends on axioms: [propext]
'Netlab.C83_vrf_import_crash' depends on axioms: [propext, Classical.choice, Quot.sound]
'Netlab.C83_auto_unsupported' depends on axioms: [propext]
'Netlab.C83_rip_kept' depends on axioms: [propext, Classical.choice, Quot.sound]
'Netlab.C83_removal_crash' depends on axioms: [propext]
'Netlab.C84_definitions' depends on axioms: [propext, Classical.choice, Quot.sound]
'Netlab.C84_accepted_iff' depends on axioms: [propext, Classical.choice, Quot.sound]
'Netlab.C84_generators' depends on axioms: [propext, Classical.choice, Quot.sound]
'Netlab.C84_named_disjoint' depends on axioms: [propext, Classical.choice, Quot.sound]
'Netlab.C84_named_static' depends on axioms: [propext, Classical.choice, Quot.sound]
'Netlab.C84_named_stable' depends on axioms: [propext, Classical.choice, Quot.sound]
'Netlab.C84_prefix6_unchecked' depends on axioms: [propext, Classical.choice, Quot.sound]
'Netlab.C84_numbered_removed' depends on axioms: [propext, Classical.choice, Quot.sound]
'Netlab.C84_mgmt_unchecked' depends on axioms: [propext, Classical.choice, Quot.sound]
'Netlab.C84_static_overridden' depends on axioms: [propext]
'Netlab.C85_nodes' depends on axioms: [propext, Classical.choice, Quot.sound]
'Netlab.C85_links' depends on axioms: [propext, Classical.choice, Quot.sound]
'Netlab.C85_complete' depends on axioms: [propext, Classical.choice, Quot.sound]
'Netlab.C85_identity' depends on axioms: [propext, Classical.choice, Quot.sound]
'Netlab.C85_idempotent' depends on axioms: [propext, Classical.choice, Quot.sound]
'Netlab.C85_no_errors' depends on axioms: [propext, Classical.choice, Quot.sound]
'Netlab.C85_ghost_link' depends on axioms: [propext, Classical.choice, Quot.sound]
'Netlab.C85_virtual_link' depends on axioms: [propext, Classical.choice, Quot.sound]
'Netlab.C86_accepted_iff' depends on axioms: [propext, Classical.choice, Quot.sound]
'Netlab.C86_interfaces' depends on axioms: [propext, Classical.choice, Quot.sound]
'Netlab.C86_effective_mtu' depends on axioms: [propext, Classical.choice, Quot.sound]
'Netlab.C86_daemon_config' depends on axioms: [propext, Classical.choice, Quot.sound]
'Netlab.C86_limits' depends on axioms: [propext, Classical.choice, Quot.sound]
'Netlab.C87_link_clients' depends on axioms: [propext, Quot.sound]
'Netlab.C87_link_modules' depends on axioms: [propext, Quot.sound]
'Netlab.C87_link_subnet' depends on axioms: [propext, Quot.sound]
'Netlab.C87_link_accepted_iff' depends on axioms: [propext, Quot.sound]
'Netlab.C87_vlan_client_ignored' does not depend on any axioms
'Netlab.C87_order' depends on axioms: [propext, Quot.sound]
'Netlab.C87_accepted_iff' depends on axioms: [propext, Classical.choice, Quot.sound]
'Netlab.C87_result' depends on axioms: [propext, Classical.choice, Quot.sound]
'Netlab.C87_unnumbered_server' does not depend on any axioms
'Netlab.C87_relay_errors' depends on axioms: [propext]
'Netlab.C88_crash_iff' depends on axioms: [propext, Classical.choice, Quot.sound]
'Netlab.C88_accepted_iff' depends on axioms: [propext, Classical.choice, Quot.sound]
'Netlab.C88_sessions' depends on axioms: [propext, Classical.choice, Quot.sound]
'Netlab.C88_symmetric' depends on axioms: [propext, Classical.choice, Quot.sound]
'Netlab.C88_localas_kept' depends on axioms: [propext, Classical.choice, Quot.sound]
'Netlab.C88_colon_crash' depends on axioms: [propext, Classical.choice, Quot.sound]
'Netlab.C89_frr_present' depends on axioms: [propext, Classical.choice, Quot.sound]
'Netlab.C89_frr_missing_sound' depends on axioms: [propext, Classical.choice, Quot.sound]
'Netlab.C89_frr_missing_single' depends on axioms: [propext, Classical.choice, Quot.sound]
'Netlab.C89_frr_community' depends on axioms: [propext, Classical.choice, Quot.sound]
'Netlab.C89_frr_community_missing' depends on axioms: [propext, Classical.choice, Quot.sound]
'Netlab.C89_eos_present' depends on axioms: [propext, Classical.choice, Quot.sound]
'Netlab.C89_eos_missing_sound' depends on axioms: [propext, Classical.choice, Quot.sound]
'Netlab.C89_eos_community' depends on axioms: [propext, Classical.choice, Quot.sound]
'Netlab.C89_missing_two' depends on axioms: [propext, Classical.choice, Quot.sound]
'Netlab.C89_community_skips' depends on axioms: [propext, Classical.choice, Quot.sound]
'Netlab.C89_community_substring' depends on axioms: [propext, Classical.choice, Quot.sound]
'Netlab.C89_community_paths' depends on axioms: [propext, Classical.choice, Quot.sound]
'Netlab.C89_eos_vrf' depends on axioms: [propext, Classical.choice, Quot.sound]
'Netlab.C90_unique' does not depend on any axioms
'Netlab.C90_result' depends on axioms: [propext, Quot.sound]
'Netlab.C90_disabled' does not depend on any axioms
'Netlab.C90_accepted_iff' depends on axioms: [propext, Quot.sound]
'Netlab.C90_vlan_crash' does not depend on any axioms
'Netlab.C91_dict' depends on axioms: [propext, Classical.choice, Quot.sound]
'Netlab.C91_dict_rejected' depends on axioms: [propext, Classical.choice, Quot.sound]
'Netlab.C91_box' depends on axioms: [propext, Classical.choice, Quot.sound]
'Netlab.C91_list' depends on axioms: [propext, Classical.choice, Quot.sound]
'Netlab.C91_round_trip' depends on axioms: [propext, Classical.choice, Quot.sound]
'Netlab.C91_extra' depends on axioms: [propext, Classical.choice, Quot.sound]
'Netlab.C91_crash_iff' depends on axioms: [propext, Classical.choice, Quot.sound]
'Netlab.C91_common_prefix' depends on axioms: [propext, Classical.choice, Quot.sound]
'Netlab.C91_other' depends on axioms: [propext, Classical.choice, Quot.sound]
'Netlab.C91_no_templates' depends on axioms: [propext, Classical.choice, Quot.sound]
'Netlab.C91_bind_lost' depends on axioms: [propext, Classical.choice, Quot.sound]
'Netlab.C92_ports' depends on axioms: [propext, Quot.sound]
'Netlab.C92_host_ports' depends on axioms: [propext, Quot.sound]
'Netlab.C92_mgmt_iff' depends on axioms: [propext, Classical.choice, Quot.sound]
'Netlab.C92_mgmt_crash' depends on axioms: [propext, Quot.sound]
'Netlab.C92_port_collision' depends on axioms: [propext, Quot.sound]
'Netlab.C93_pad' depends on axioms: [propext, Quot.sound]
'Netlab.C93_batches' depends on axioms: [propext, Quot.sound]
'Netlab.C93_tunnel' depends on axioms: [propext, Classical.choice, Quot.sound]
'Netlab.C93_no_tunnel' depends on axioms: [propext, Quot.sound]
'Netlab.C93_lan_bridge' depends on axioms: [propext, Quot.sound]
'Netlab.C93_empty_batch' depends on axioms: [propext, Quot.sound]
'Netlab.C93_bridge_one_end' depends on axioms: [propext]
'Netlab.C94_accepted' depends on axioms: [propext, Classical.choice, Quot.sound]
'Netlab.C94_secondary' depends on axioms: [propext, Quot.sound]
'Netlab.C94_no_spurious' depends on axioms: [propext, Classical.choice, Quot.sound]
'Netlab.C94_names' depends on axioms: [propext, Quot.sound]
'Netlab.C94_daemon' depends on axioms: [propext, Classical.choice, Quot.sound]
'Netlab.C94_attributes' depends on axioms: [propext, Classical.choice, Quot.sound]
'Netlab.C94_device_provider' depends on axioms: [propext]
'Netlab.C94_provider_replaced' depends on axioms: [propext]
'Netlab.C95_unique' depends on axioms: [propext, Classical.choice, Quot.sound]
'Netlab.C95_not_in_earlier' depends on axioms: [propext, Classical.choice, Quot.sound]
'Netlab.C95_static' depends on axioms: [propext, Classical.choice, Quot.sound]
'Netlab.C95_assigned' depends on axioms: [propext, Classical.choice, Quot.sound]
'Netlab.C95_checked' depends on axioms: [propext, Classical.choice, Quot.sound]
'Netlab.C95_pool_attribute' depends on axioms: [propext]
'Netlab.C95_ipv4_subnet' depends on axioms: [propext, Quot.sound]
'Netlab.C96_ipv4_text' depends on axioms: [propext, Quot.sound]
'Netlab.C96_prefix_length' depends on axioms: [propext, Classical.choice, Quot.sound]
'Netlab.C96_ipv4' depends on axioms: [propext, Classical.choice, Quot.sound]
'Netlab.C96_id' depends on axioms: [propext, Classical.choice, Quot.sound]
'Netlab.C96_stable' depends on axioms: [propext, Classical.choice, Quot.sound]
'Netlab.C96_ipv6' depends on axioms: [propext, Classical.choice, Quot.sound]
'Netlab.C96_named' depends on axioms: [propext, Classical.choice, Quot.sound]
'Netlab.C96_bool' depends on axioms: [propext, Classical.choice, Quot.sound]
'Netlab.C96_reference' depends on axioms: [propext, Quot.sound]
'Netlab.C96_mac' depends on axioms: [propext, Quot.sound]
'Netlab.C96_rd' depends on axioms: [propext, Classical.choice, Quot.sound]
'Netlab.C96_rd_parts' depends on axioms: [propext, Classical.choice, Quot.sound]
'Netlab.C96_net' depends on axioms: [propext, Classical.choice, Quot.sound]
'Netlab.C96_prefix_str' depends on axioms: [propext, Classical.choice, Quot.sound]
'Netlab.C96_prefix_without_length' depends on axioms: [propext, Classical.choice, Quot.sound]
'Netlab.C96_multicast_subnet' depends on axioms: [propext, Classical.choice, Quot.sound]
'Netlab.C96_empty_net' depends on axioms: [propext, Classical.choice, Quot.sound]
'Netlab.C96_strange_rd' depends on axioms: [propext, Classical.choice, Quot.sound]
'Netlab.C97_ospf_unnumbered' depends on axioms: [propext, Classical.choice, Quot.sound]
'Netlab.C97_isis_unnumbered' depends on axioms: [propext, Classical.choice, Quot.sound]
'Netlab.C97_isis_instances' depends on axioms: [propext, Quot.sound]
'Netlab.C97_strict_bfd' depends on axioms: [propext]
'Netlab.C97_vrf_copy' depends on axioms: [propext, Classical.choice, Quot.sound]
'Netlab.C97_loopback_area' depends on axioms: [propext, Classical.choice, Quot.sound]
'Netlab.C97_rip_timers' depends on axioms: [propext, Classical.choice, Quot.sound]
'Netlab.C97_rip_instances' depends on axioms: [propext]
'Netlab.C97_vrf_protocol' depends on axioms: [propext, Classical.choice, Quot.sound]
'Netlab.C97_intf_params' depends on axioms: [propext, Quot.sound]
'Netlab.C97_router_ids' depends on axioms: [propext, Quot.sound]
'Netlab.C97_srv6_locators' depends on axioms: [propext, Classical.choice, Quot.sound]
'Netlab.C97_srv6_loopback' depends on axioms: [propext, Quot.sound]
'Netlab.C97_isis_other_intf' depends on axioms: [propext]
'Netlab.C97_vrf_intf_params' depends on axioms: [propext, Quot.sound]
'Netlab.C97_srv6_contained' depends on axioms: [propext, Quot.sound]
'Netlab.C98_propagated' depends on axioms: [propext, Classical.choice, Quot.sound]
'Netlab.C98_propagated_attributes' depends on axioms: [propext, Quot.sound]
'Netlab.C98_neighbor_data' depends on axioms: [propext, Classical.choice, Quot.sound]
'Netlab.C98_addresses' depends on axioms: [propext, Classical.choice, Quot.sound]
'Netlab.C98_bad_addresses' depends on axioms: [propext, Classical.choice, Quot.sound]
'Netlab.C98_parent' depends on axioms: [propext]
'Netlab.C98_features' depends on axioms: [propext, Quot.sound]
'Netlab.C98_node_af' depends on axioms: [propext, Classical.choice, Quot.sound]
'Netlab.C98_ifname' depends on axioms: [propext, Classical.choice, Quot.sound]
'Netlab.C98_interface_name' depends on axioms: [propext, Classical.choice, Quot.sound]
'Netlab.C98_gateway' depends on axioms: [propext, Classical.choice, Quot.sound]
'Netlab.C98_gateway_ready' depends on axioms: [propext, Quot.sound]
'Netlab.C98_gateway_crash' depends on axioms: [propext]
'Netlab.C99_vlan_links' depends on axioms: [propext, Quot.sound]
'Netlab.C99_every_vlan' depends on axioms: [propext, Quot.sound]
'Netlab.C99_one_link' depends on axioms: [propext, Quot.sound]
'Netlab.C99_members_removed' depends on axioms: [propext, Classical.choice, Quot.sound]
'Netlab.C99_access_links' depends on axioms: [propext, Quot.sound]
'Netlab.C99_attributes' depends on axioms: [propext, Quot.sound]
'Netlab.C99_copied_attributes' depends on axioms: [propext, Classical.choice, Quot.sound]
'Netlab.C99_renamed' depends on axioms: [propext]
'Netlab.C99_internal_attributes' depends on axioms: [propext, Classical.choice, Quot.sound]
'Netlab.C99_node_prefix' does not depend on any axioms
'Netlab.C99_no_mode' depends on axioms: [propext]
'Netlab.C100_attribute' depends on axioms: [propext, Classical.choice, Quot.sound]
'Netlab.C100_features' depends on axioms: [propext, Classical.choice, Quot.sound]
'Netlab.C100_daemons' depends on axioms: [propext, Classical.choice, Quot.sound]
'Netlab.C100_daemon_attributes' depends on axioms: [propext, Classical.choice, Quot.sound]
'Netlab.C100_device_features' depends on axioms: [propext, Quot.sound]
'Netlab.C100_supported_on' depends on axioms: [propext, Classical.choice, Quot.sound]
'Netlab.C100_final' depends on axioms: [propext, Quot.sound]
'Netlab.C100_false_feature' depends on axioms: [propext]
'Netlab.C101_node_types' depends on axioms: [propext, Quot.sound]
'Netlab.C101_interface_types' depends on axioms: [propext, Quot.sound]
'Netlab.C101_search_paths' depends on axioms: [propext, Classical.choice, Quot.sound]
'Netlab.C101_new_search_paths' depends on axioms: [propext, Classical.choice, Quot.sound]
'Netlab.C101_copied' depends on axioms: [propext, Classical.choice, Quot.sound]
'Netlab.C101_copy_errors' depends on axioms: [propext, Classical.choice, Quot.sound]
'Netlab.C101_copy_total' depends on axioms: [propext, Classical.choice, Quot.sound]
'Netlab.C101_chain_order' depends on axioms: [propext, Classical.choice, Quot.sound]
'Netlab.C101_missing_definition' depends on axioms: [propext, Classical.choice, Quot.sound]
'Netlab.C102_host_vars' depends on axioms: [propext, Classical.choice, Quot.sound]
'Netlab.C102_members' depends on axioms: [propext, Classical.choice, Quot.sound]
'Netlab.C102_device_group' depends on axioms: [propext]
'Netlab.C102_host_data' depends on axioms: [propext, Classical.choice, Quot.sound]
'Netlab.C102_children' depends on axioms: [propext, Classical.choice, Quot.sound]
'Netlab.C102_group_vars' depends on axioms: [propext, Classical.choice, Quot.sound]
'Netlab.C102_topology_group_vars' depends on axioms: [propext, Classical.choice, Quot.sound]
'Netlab.C102_split' depends on axioms: [propext, Quot.sound]
'Netlab.C102_host_files' depends on axioms: [propext, Classical.choice, Quot.sound]
'Netlab.C102_inventory_file' depends on axioms: [propext, Classical.choice, Quot.sound]
'Netlab.C102_addresses' depends on axioms: [propext, Classical.choice, Quot.sound]
'Netlab.C102_loopback_addresses' depends on axioms: [propext, Classical.choice, Quot.sound]
'Netlab.C102_vrf_name_clash' depends on axioms: [propext]
'Netlab.C102_reserved_group' depends on axioms: [propext]
'Netlab.C103_other_settings' depends on axioms: [propext, Classical.choice, Quot.sound]
'Netlab.C103_accepted' depends on axioms: [propext, Classical.choice, Quot.sound]
'Netlab.C103_errors' depends on axioms: [propext, Classical.choice, Quot.sound]
'Netlab.C103_silent' depends on axioms: [propext, Classical.choice, Quot.sound]
'Netlab.C103_stable' depends on axioms: [propext, Classical.choice, Quot.sound]
'Netlab.C103_list' depends on axioms: [propext, Classical.choice, Quot.sound]
'Netlab.C103_crash' depends on axioms: [propext]
'Netlab.C103_unexpected_value' depends on axioms: [propext]
'Netlab.C104_exit_on_error' depends on axioms: [propext, Classical.choice, Quot.sound]
'Netlab.C104_logs_grow' depends on axioms: [propext, Classical.choice, Quot.sound]
'Netlab.C104_warnings_never_abort' depends on axioms: [propext, Classical.choice, Quot.sound]
'Netlab.C104_messages' depends on axioms: [propext, Classical.choice, Quot.sound]
'Netlab.C104_disabled' depends on axioms: [propext, Classical.choice, Quot.sound]
'Netlab.C104_exit_request' depends on axioms: [propext, Classical.choice, Quot.sound]
'Netlab.C104_repeat' depends on axioms: [propext, Classical.choice, Quot.sound]
'Netlab.C104_hint_once' depends on axioms: [propext, Classical.choice, Quot.sound]
'Netlab.C104_disable_hint_once' depends on axioms: [propext, Classical.choice, Quot.sound]
'Netlab.C104_disable_hint_shown' depends on axioms: [propext, Classical.choice, Quot.sound]
'Netlab.C104_static_hint_once' depends on axioms: [propext, Classical.choice, Quot.sound]
'Netlab.C104_repeat_twice' depends on axioms: [propext, Classical.choice, Quot.sound]
'Netlab.C104_lines_counted' depends on axioms: [propext, Classical.choice, Quot.sound]
'Netlab.C104_quiet_hint' depends on axioms: [propext, Classical.choice, Quot.sound]
'Netlab.C104_init_keeps_warnings' depends on axioms: [propext, Classical.choice, Quot.sound]
'Netlab.C105_accepted' depends on axioms: [propext, Classical.choice, Quot.sound]
'Netlab.C105_devices' depends on axioms: [propext, Classical.choice, Quot.sound]
'Netlab.C105_list' depends on axioms: [propext, Classical.choice, Quot.sound]
'Netlab.C105_errors' depends on axioms: [propext, Classical.choice, Quot.sound]
'Netlab.C105_supported' depends on axioms: [propext, Classical.choice, Quot.sound]
'Netlab.C105_no_crash' depends on axioms: [propext, Classical.choice, Quot.sound]
'Netlab.C105_tools' depends on axioms: [propext, Classical.choice, Quot.sound]
'Netlab.C105_tools_start' depends on axioms: [propext, Classical.choice, Quot.sound]
'Netlab.C105_unknown_tool' depends on axioms: [propext, Classical.choice, Quot.sound]
'Netlab.C106_redirect' depends on axioms: [propext, Quot.sound]
'Netlab.C106_not_found' depends on axioms: [propext, Classical.choice, Quot.sound]
'Netlab.C106_loaded' depends on axioms: [propext, Classical.choice, Quot.sound]
'Netlab.C106_order' depends on axioms: [propext, Classical.choice, Quot.sound]
'Netlab.C106_execute' depends on axioms: [propext, Classical.choice, Quot.sound]
'Netlab.C106_compose' depends on axioms: [propext, Quot.sound]
'Netlab.C106_requires' depends on axioms: [propext, Classical.choice, Quot.sound]
'Netlab.C106_executed_twice' depends on axioms: [propext]
'Netlab.C106_bad_requires' depends on axioms: [propext]
'Netlab.C106_redirect_loop' depends on axioms: [propext]
'Netlab.C107_version' depends on axioms: [propext, Classical.choice, Quot.sound]
'Netlab.C107_requirement' depends on axioms: [propext, Classical.choice, Quot.sound]
'Netlab.C107_versioned' depends on axioms: [propext, Classical.choice, Quot.sound]
'Netlab.C107_any_order' depends on axioms: [propext, Classical.choice, Quot.sound]
'Netlab.C107_file_exists' depends on axioms: [propext, Classical.choice, Quot.sound]
'Netlab.C107_operator_crash' depends on axioms: [propext, Classical.choice, Quot.sound]
'Netlab.C107_missing_file' depends on axioms: [propext, Classical.choice, Quot.sound]
'Netlab.C107_include_all' depends on axioms: [propext, Quot.sound]
'Netlab.C107_includes_done' depends on axioms: [propext, Classical.choice, Quot.sound]
'Netlab.C107_no_includes' depends on axioms: [propext, Quot.sound]
'Netlab.C107_included' depends on axioms: [propext, Classical.choice, Quot.sound]
'Netlab.C107_include_keeps' depends on axioms: [propext, Classical.choice, Quot.sound]
'Netlab.C107_include_top' depends on axioms: [propext, Classical.choice, Quot.sound]
'Netlab.C107_include_replaces' depends on axioms: [propext, Quot.sound]
'Netlab.C107_cli_value' depends on axioms: [propext, Classical.choice, Quot.sound]
'Netlab.C107_cli_setting' depends on axioms: [propext, Classical.choice, Quot.sound]
'Netlab.C107_cli_wins' depends on axioms: [propext, Classical.choice, Quot.sound]
'Netlab.C107_cli_crash' depends on axioms: [propext, Classical.choice, Quot.sound]
'Netlab.C107_cli_plugins' depends on axioms: [propext, Classical.choice, Quot.sound]
'Netlab.C107_cli_provider' depends on axioms: [propext, Classical.choice, Quot.sound]
'Netlab.C107_cli_list' depends on axioms: [propext, Classical.choice, Quot.sound]
'Netlab.C107_cli_stages' depends on axioms: [propext, Classical.choice, Quot.sound]
'Netlab.C107_cli_parts' depends on axioms: [propext, Classical.choice, Quot.sound]
'Netlab.C108_reported' depends on axioms: [propext, Quot.sound]
'Netlab.C108_first_location' depends on axioms: [propext, Classical.choice, Quot.sound]
'Netlab.C108_collection' depends on axioms: [propext, Classical.choice, Quot.sound]
'Netlab.C108_reported_once' depends on axioms: [propext, Classical.choice, Quot.sound]
'Netlab.C108_version_text' depends on axioms: [propext, Classical.choice, Quot.sound]
'Netlab.C108_ceos_text' depends on axioms: [propext, Classical.choice, Quot.sound]
'Netlab.C108_parts_unique' depends on axioms: [propext, Classical.choice, Quot.sound]
'Netlab.C108_junos_names' depends on axioms: [propext, Classical.choice, Quot.sound]
'Netlab.C108_junos_distinct' depends on axioms: [propext, Classical.choice, Quot.sound]
'Netlab.C108_junos_clash' depends on axioms: [propext, Classical.choice, Quot.sound]
'Netlab.C108_junos_vrf' depends on axioms: [propext, Classical.choice, Quot.sound]
'Netlab.C108_junos_again' depends on axioms: [propext, Classical.choice, Quot.sound]
'Netlab.C108_junos_master' depends on axioms: [propext, Classical.choice, Quot.sound]
'Netlab.C108_junos_mtu' depends on axioms: [propext, Classical.choice, Quot.sound]
'Netlab.C108_junos_native' depends on axioms: [propext, Classical.choice, Quot.sound]
'Netlab.C108_loopbacks' depends on axioms: [propext, Classical.choice, Quot.sound]
'Netlab.C108_ospf_index' depends on axioms: [propext, Classical.choice, Quot.sound]
'Netlab.C108_vsx_roles' depends on axioms: [propext, Classical.choice, Quot.sound]
'Netlab.C108_tagged_1' depends on axioms: [propext, Quot.sound]
'Netlab.C108_reserved' depends on axioms: [propext, Classical.choice, Quot.sound]
'Netlab.C108_linux' depends on axioms: [propext, Classical.choice, Quot.sound]
'Netlab.C108_bundle' depends on axioms: [propext, Classical.choice, Quot.sound]
'Netlab.C108_unknown' depends on axioms: [propext, Quot.sound]
'Netlab.C108_passive_value' depends on axioms: [propext]
'Netlab.C108_passive' depends on axioms: [propext, Quot.sound]
'Netlab.C109_calls' depends on axioms: [propext, Quot.sound]
'Netlab.C109_stages' depends on axioms: [propext, Quot.sound]
'Netlab.C109_once' depends on axioms: [propext, Quot.sound]
'Netlab.C109_no_crash' depends on axioms: [propext, Classical.choice, Quot.sound]
'Netlab.C109_extra_twice' depends on axioms: [propext]
'Netlab.C109_order' depends on axioms: [propext, Classical.choice, Quot.sound]
'Netlab.C109_link_order' depends on axioms: [propext]
'Netlab.C109_reorder_keeps' depends on axioms: [propext, Quot.sound]
'Netlab.C109_remove' depends on axioms: [propext, Quot.sound]
'Netlab.C109_copy' depends on axioms: [propext, Classical.choice, Quot.sound]
'Netlab.C109_copy_disabled' depends on axioms: [propext]
'Netlab.C109_copy_each' depends on axioms: [propext, Quot.sound]
'Netlab.C109_copy_vrf_skipped' depends on axioms: [propext, Quot.sound]
'Netlab.C109_copy_crash' depends on axioms: [propext]
'Netlab.C110_as_clusters' depends on axioms: [propext, Classical.choice, Quot.sound]
'Netlab.C110_one_as' depends on axioms: [propext, Classical.choice, Quot.sound]
'Netlab.C110_group_clusters' depends on axioms: [propext, Classical.choice, Quot.sound]
'Netlab.C110_links' depends on axioms: [propext, Quot.sound]
'Netlab.C110_crash' depends on axioms: [propext, Classical.choice, Quot.sound]
'Netlab.C110_nodes' depends on axioms: [propext, Classical.choice, Quot.sound]
'Netlab.C110_as_graph' depends on axioms: [propext, Classical.choice, Quot.sound]
'Netlab.C110_host_missing' depends on axioms: [propext, Quot.sound]
'Netlab.C110_two_clusters' depends on axioms: [propext, Quot.sound]
'Netlab.C110_as_name' depends on axioms: [propext, Quot.sound]
'Netlab.C110_d2_links' depends on axioms: [propext, Classical.choice, Quot.sound]
'Netlab.C110_d2_missing' depends on axioms: [propext, Quot.sound]
'Netlab.C110_sessions' depends on axioms: [propext, Classical.choice, Quot.sound]
'Netlab.C110_session_drawn' depends on axioms: [propext, Classical.choice, Quot.sound]
'Netlab.C110_direction' depends on axioms: [propext, Classical.choice, Quot.sound]
'Netlab.C110_rr_false' does not depend on any axioms
'Netlab.C110_d2_sessions' depends on axioms: [propext, Classical.choice, Quot.sound]
'Netlab.C110_d2_direction' depends on axioms: [propext, Classical.choice, Quot.sound]
'Netlab.C111_bonds' depends on axioms: [propext, Classical.choice, Quot.sound]
'Netlab.C111_bond_members' depends on axioms: [propext, Classical.choice, Quot.sound]
'Netlab.C111_bond_interfaces' depends on axioms: [propext, Quot.sound]
'Netlab.C111_bond_peer_name' does not depend on any axioms
'Netlab.C111_bond_other_link' depends on axioms: [propext]
'Netlab.C111_originate' depends on axioms: [propext, Quot.sound]
'Netlab.C111_proxy_arp' depends on axioms: [propext, Quot.sound]
'Netlab.C111_proxy_arp_false' does not depend on any axioms
'Netlab.C111_vrrp' depends on axioms: [propext]
'Netlab.C111_vtep' depends on axioms: [propext, Quot.sound]
'Netlab.C111_vtep_shared' depends on axioms: [propext, Quot.sound]
'Netlab.C111_vtep_ok' depends on axioms: [propext]
'Netlab.C111_check' depends on axioms: [propext, Quot.sound]
'Netlab.C111_check_stops' does not depend on any axioms
'Netlab.C111_multilab_eval' depends on axioms: [propext, Classical.choice, Quot.sound]
'Netlab.C111_multilab_merge' depends on axioms: [propext, Classical.choice, Quot.sound]
'Netlab.C111_multilab_init' depends on axioms: [propext, Classical.choice, Quot.sound]
'Netlab.C112_bgp_frr' depends on axioms: [propext, Classical.choice, Quot.sound]
'Netlab.C112_bgp_frr_up' depends on axioms: [propext, Classical.choice, Quot.sound]
'Netlab.C112_bgp_frr_missing' depends on axioms: [propext, Classical.choice, Quot.sound]
'Netlab.C112_bgp_eos' depends on axioms: [propext, Classical.choice, Quot.sound]
'Netlab.C112_bgp_eos_up' depends on axioms: [propext, Classical.choice, Quot.sound]
'Netlab.C112_bgp_no_peers' depends on axioms: [propext, Classical.choice, Quot.sound]
'Netlab.C112_bgp_missing_differs' depends on axioms: [propext, Classical.choice, Quot.sound]
'Netlab.C112_bgp_details' depends on axioms: [propext, Quot.sound]
'Netlab.C112_ospf_frr' depends on axioms: [propext, Classical.choice, Quot.sound]
'Netlab.C112_ospf_frr_flat' depends on axioms: [propext, Classical.choice, Quot.sound]
'Netlab.C112_ospf6_frr' depends on axioms: [propext, Classical.choice, Quot.sound]
'Netlab.C112_ospf_eos' depends on axioms: [propext, Classical.choice, Quot.sound]
'Netlab.C112_ospf_parallel' depends on axioms: [propext, Classical.choice, Quot.sound]
'Netlab.C112_ospf_prefix' depends on axioms: [propext, Classical.choice, Quot.sound]
'Netlab.C112_ospf_prefix_missing' depends on axioms: [propext, Classical.choice, Quot.sound]
'Netlab.C112_ospf6_prefix' depends on axioms: [propext, Classical.choice, Quot.sound]
'Netlab.C112_ospf_missing_two' depends on axioms: [propext, Classical.choice, Quot.sound]
'Netlab.C112_ospf_prefix_eos' depends on axioms: [propext, Classical.choice, Quot.sound]
'Netlab.C112_isis_neighbor' depends on axioms: [propext, Classical.choice, Quot.sound]
'Netlab.C112_isis_prefix' depends on axioms: [propext, Quot.sound]
'Netlab.C112_isis_parallel' does not depend on any axioms
'Netlab.C112_route' depends on axioms: [propext, Classical.choice, Quot.sound]
'Netlab.C112_route6' depends on axioms: [propext, Quot.sound]
'Netlab.C112_route_missing' depends on axioms: [propext, Classical.choice, Quot.sound]
'Netlab.C112_ping' depends on axioms: [propext, Classical.choice, Quot.sound]
'Netlab.C112_ping_ten' depends on axioms: [propext, Classical.choice, Quot.sound]
'Netlab.C112_default6' depends on axioms: [propext, Classical.choice, Quot.sound]
'Netlab.C112_linux_route' depends on axioms: [propext, Classical.choice, Quot.sound]
'Netlab.C112_linux_route_waiting' depends on axioms: [propext, Classical.choice, Quot.sound]
'Netlab.C112_linux_route_missing' depends on axioms: [propext, Classical.choice, Quot.sound]
'Netlab.C112_linux_route_other' depends on axioms: [propext, Classical.choice, Quot.sound]
'Netlab.C113_id_chars' depends on axioms: [propext, Quot.sound]
'Netlab.C113_id_text' depends on axioms: [propext, Quot.sound]
'Netlab.C113_topology_name' depends on axioms: [propext, Quot.sound]
'Netlab.C113_name_empty' depends on axioms: [propext, Quot.sound]
'Netlab.C113_id_digit' depends on axioms: [propext, Classical.choice, Quot.sound]
'Netlab.C113_prefix_dict' depends on axioms: [propext, Classical.choice, Quot.sound]
'Netlab.C113_prefix_legacy' depends on axioms: [propext, Classical.choice, Quot.sound]
'Netlab.C113_prefix_text' depends on axioms: [propext]
'Netlab.C113_export_value' depends on axioms: [propext, Classical.choice, Quot.sound]
'Netlab.C113_export_objects' depends on axioms: [propext, Classical.choice, Quot.sound]
'Netlab.C113_export_errors' depends on axioms: [propext, Classical.choice, Quot.sound]
'Netlab.C113_counts' depends on axioms: [propext, Classical.choice, Quot.sound]
'Netlab.C113_clean_pools' depends on axioms: [propext, Classical.choice, Quot.sound]
'Netlab.C113_clean_groups' depends on axioms: [propext, Classical.choice, Quot.sound]
'Netlab.C114_host' depends on axioms: [propext, Classical.choice, Quot.sound]
'Netlab.C114_substitute' depends on axioms: [propext]
'Netlab.C114_show' depends on axioms: [propext, Classical.choice, Quot.sound]
'Netlab.C114_command' depends on axioms: [propext, Classical.choice, Quot.sound]
'Netlab.C114_ssh' depends on axioms: [propext, Quot.sound]
'Netlab.C114_docker' depends on axioms: [propext]
'Netlab.C114_method' depends on axioms: [propext]
'Netlab.C114_tool_last' depends on axioms: [propext, Classical.choice, Quot.sound]
'Netlab.C114_run_started' depends on axioms: [propext, Classical.choice, Quot.sound]
'Netlab.C114_run_result' depends on axioms: [propext, Classical.choice, Quot.sound]
'Netlab.C114_dry_validate' depends on axioms: [propext]
'Netlab.C114_missing_validate' depends on axioms: [propext]
'Netlab.C114_up_validate' depends on axioms: [propext, Quot.sound]
'Netlab.C114_probe' depends on axioms: [propext, Quot.sound]
'Netlab.C114_probe_quiet' depends on axioms: [propext]
'Netlab.C114_provider_status' depends on axioms: [propext, Classical.choice, Quot.sound]
'Netlab.C115_command' depends on axioms: [propext, Classical.choice, Quot.sound]
'Netlab.C115_plugin' depends on axioms: [propext, Classical.choice, Quot.sound]
'Netlab.C115_json' depends on axioms: [propext, Classical.choice, Quot.sound]
'Netlab.C115_json_none' depends on axioms: [propext, Classical.choice, Quot.sound]
'Netlab.C115_parsed' depends on axioms: [propext, Quot.sound]
'Netlab.C115_wait' depends on axioms: [propext, Classical.choice, Quot.sound]
'Netlab.C115_wait_until' depends on axioms: [propext, Classical.choice, Quot.sound]
'Netlab.C115_extend' depends on axioms: [propext, Quot.sound]
'Netlab.C115_first' depends on axioms: [propext, Quot.sound]
'Netlab.C115_filter' depends on axioms: [propext, Classical.choice, Quot.sound]
'Netlab.C115_suzieq' depends on axioms: [propext, Classical.choice, Quot.sound]
'Netlab.C116_unnumbered' depends on axioms: [propext, Classical.choice, Quot.sound]
'Netlab.C116_unnumbered_link' depends on axioms: [propext, Classical.choice, Quot.sound]
'Netlab.C116_static_address' depends on axioms: [propext, Classical.choice, Quot.sound]
'Netlab.C116_static_lost' depends on axioms: [propext, Classical.choice, Quot.sound]
'Netlab.C116_unique' depends on axioms: [propext, Classical.choice, Quot.sound]
'Netlab.C116_pool_choice' depends on axioms: [propext, Classical.choice, Quot.sound]
'Netlab.C116_own_prefix' depends on axioms: [propext, Classical.choice, Quot.sound]
'Netlab.C116_in_prefix' depends on axioms: [propext, Classical.choice, Quot.sound]
'Netlab.C116_gateway' depends on axioms: [propext, Classical.choice, Quot.sound]
'Netlab.C116_static_overlap' depends on axioms: [propext, Classical.choice, Quot.sound]
'Netlab.C116_unknown_pool' depends on axioms: [propext, Classical.choice, Quot.sound]
'Netlab.C117_isolation' depends on axioms: [propext, Classical.choice, Quot.sound]
'Netlab.C117_down' depends on axioms: [propext, Classical.choice, Quot.sound]
'Netlab.C117_up' depends on axioms: [propext, Classical.choice, Quot.sound]
'Netlab.C117_recovery' depends on axioms: [propext, Classical.choice, Quot.sound]
'Netlab.C117_restart' depends on axioms: [propext, Classical.choice, Quot.sound]
'Netlab.C117_after_history' depends on axioms: [propext, Classical.choice, Quot.sound]
'Netlab.C117_roundtrip' depends on axioms: [propext, Classical.choice, Quot.sound]
'Netlab.C117_force' depends on axioms: [propext, Classical.choice, Quot.sound]
'Netlab.C118_unique' depends on axioms: [propext, Classical.choice, Quot.sound]
'Netlab.C118_devices' depends on axioms: [propext, Classical.choice, Quot.sound]
'Netlab.C118_named' depends on axioms: [propext, Classical.choice, Quot.sound]
'Netlab.C118_mgmt' depends on axioms: [propext, Classical.choice, Quot.sound]
'Netlab.C118_lab' depends on axioms: [propext, Classical.choice, Quot.sound]
'Netlab.C118_lab_mgmt' depends on axioms: [propext, Classical.choice, Quot.sound]
'Netlab.C118_container' depends on axioms: [propext, Classical.choice, Quot.sound]
'Netlab.C118_veth_multilab' depends on axioms: [propext, Classical.choice, Quot.sound]
'Netlab.C118_veth_length' depends on axioms: [propext, Classical.choice, Quot.sound]
'Netlab.C118_veth' depends on axioms: [propext, Classical.choice, Quot.sound]
'Netlab.C118_veth_clash' depends on axioms: [propext, Classical.choice, Quot.sound]
'Netlab.C118_static_name' depends on axioms: [propext, Classical.choice, Quot.sound]
'Netlab.C118_svi' depends on axioms: [propext, Classical.choice, Quot.sound]
'Netlab.C118_subif' depends on axioms: [propext, Classical.choice, Quot.sound]
'Netlab.C119_node_ids' depends on axioms: [propext, Classical.choice, Quot.sound]
'Netlab.C119_lab' depends on axioms: [propext, Classical.choice, Quot.sound]
'Netlab.C119_static_id_shifts' depends on axioms: [propext, Classical.choice, Quot.sound]
'Netlab.C119_loopback_pool_shifts' depends on axioms: [propext, Classical.choice, Quot.sound]
'Netlab.C119_vlan_prefix_shifts' depends on axioms: [propext, Classical.choice, Quot.sound]
'Netlab.C119_vlans' depends on axioms: [propext, Classical.choice, Quot.sound]
'Netlab.C119_global_vlan_shifts' depends on axioms: [propext, Quot.sound]
'Netlab.C119_vnis' depends on axioms: [propext, Classical.choice, Quot.sound]
'Netlab.C119_static_vni_shifts' depends on axioms: [propext, Quot.sound]
'Netlab.C119_vrfs' depends on axioms: [propext, Classical.choice, Quot.sound]
'Netlab.C119_node_vrfs' depends on axioms: [propext, Classical.choice, Quot.sound]
'Netlab.C119_global_vrf_shifts' depends on axioms: [propext, Quot.sound]
'Netlab.C120_neighbors' depends on axioms: [propext, Classical.choice, Quot.sound]
'Netlab.C120_unique' depends on axioms: [propext, Classical.choice, Quot.sound]
'Netlab.C120_connected' depends on axioms: [propext, Classical.choice, Quot.sound]
'Netlab.C120_two_interfaces' depends on axioms: [propext, Classical.choice, Quot.sound]
'Netlab.C120_daemon_local_as' depends on axioms: [propext]
'Netlab.C121_ebgp' depends on axioms: [propext, Classical.choice, Quot.sound]
'Netlab.C121_ibgp' depends on axioms: [propext, Classical.choice, Quot.sound]
'Netlab.C121_address_family_mismatch' depends on axioms: [propext]
'Netlab.C122_unique' depends on axioms: [propext, Classical.choice, Quot.sound]
'Netlab.C122_static_loopback' depends on axioms: [propext]
'Netlab.C122_overlapping_pools' depends on axioms: [propext]
'Netlab.C123_only' depends on axioms: [propext, Quot.sound]
'Netlab.C123_dry_run' depends on axioms: [propext]
'Netlab.C123_complete' depends on axioms: [propext, Quot.sound]
'Netlab.C123_snapshot_last' depends on axioms: [propext, Quot.sound]
'Netlab.C123_repeat' depends on axioms: [propext, Quot.sound]
'Netlab.C123_modified' depends on axioms: [propext, Quot.sound]
'Netlab.C123_link_to_directory' does not depend on any axioms
'Netlab.C123_dangling_link' depends on axioms: [propext]
'Netlab.C123_tool_failure' does not depend on any axioms
'Netlab.C124_sorted' depends on axioms: [propext, Classical.choice, Quot.sound]
'Netlab.C124_rr_clusters' depends on axioms: [propext, Classical.choice, Quot.sound]
'Netlab.C124_vrf_ids' depends on axioms: [propext, Classical.choice, Quot.sound]
'Netlab.C124_vlan_link' depends on axioms: [propext, Classical.choice, Quot.sound]
'Netlab.C124_configs' depends on axioms: [propext, Classical.choice, Quot.sound]
'Netlab.C124_undefined_vrfs' depends on axioms: [propext, Quot.sound]
'Netlab.C124_node_vlan_prefix' depends on axioms: [propext]
'Netlab.C124_unrelated_configs' does not depend on any axioms
'Netlab.C125_same' depends on axioms: [propext, Classical.choice, Quot.sound]
'Netlab.C125_interface' depends on axioms: [propext, Classical.choice, Quot.sound]
'Netlab.C125_disabled' depends on axioms: [propext, Classical.choice, Quot.sound]
'Netlab.C125_attributes' depends on axioms: [propext, Classical.choice, Quot.sound]
'Netlab.C125_area_mismatch' depends on axioms: [propext, Quot.sound]
'Netlab.C126_connected' depends on axioms: [propext, Classical.choice, Quot.sound]
'Netlab.C126_isolated' depends on axioms: [propext, Classical.choice, Quot.sound]
'Netlab.C126_named' depends on axioms: [propext, Classical.choice, Quot.sound]
'Netlab.C126_leak_without_globals' depends on axioms: [propext, Classical.choice, Quot.sound]
'Netlab.C126_node_vrfs_disconnected' depends on axioms: [propext, Classical.choice, Quot.sound]
'Netlab.C127_mesh' depends on axioms: [propext, Classical.choice, Quot.sound]
'Netlab.C127_reciprocal' depends on axioms: [propext, Classical.choice, Quot.sound]
'Netlab.C127_mixed_flooding' depends on axioms: [propext, Classical.choice, Quot.sound]
'Netlab.C128_interface_tag' depends on axioms: [propext, Classical.choice, Quot.sound]
'Netlab.C128_same_tag' depends on axioms: [propext, Classical.choice, Quot.sound]
'Netlab.C128_different_tags' depends on axioms: [propext, Classical.choice, Quot.sound]
'Netlab.C128_trunk_tags' depends on axioms: [propext, Classical.choice, Quot.sound]
'Netlab.C128_trunk_ends' depends on axioms: [propext, Classical.choice, Quot.sound]
'Netlab.C128_access_link' depends on axioms: [propext, Classical.choice, Quot.sound]
'Netlab.C128_local_vlans' depends on axioms: [propext]
'Netlab.C129_automatic_addresses' depends on axioms: [propext, Classical.choice, Quot.sound]
'Netlab.C129_unreserved_gateway' depends on axioms: [propext, Classical.choice, Quot.sound]
'Netlab.C129_same_node_twice' depends on axioms: [propext, Classical.choice, Quot.sound]
'Netlab.C130_bridge_list' depends on axioms: [propext, Quot.sound]
'Netlab.C130_other_bridges' depends on axioms: [propext, Classical.choice, Quot.sound]
'Netlab.C130_start' depends on axioms: [propext, Classical.choice, Quot.sound]
'Netlab.C130_stop' depends on axioms: [propext, Classical.choice, Quot.sound]
'Netlab.C130_start_stop' depends on axioms: [propext, Classical.choice, Quot.sound]
'Netlab.C130_existing_bridge_removed' does not depend on any axioms
'Netlab.C130_kernel_modules' depends on axioms: [propext, Classical.choice, Quot.sound]
'Netlab.C130_container_images' depends on axioms: [propext, Classical.choice, Quot.sound]
'Netlab.C130_images_accepted' depends on axioms: [propext, Classical.choice, Quot.sound]
'Netlab.C130_installed_box' depends on axioms: [propext, Classical.choice, Quot.sound]
'Netlab.C130_similar_box' depends on axioms: [propext, Classical.choice, Quot.sound]
'Netlab.C130_management_network' depends on axioms: [propext, Classical.choice, Quot.sound]
'Netlab.C130_similar_network' depends on axioms: [propext, Classical.choice, Quot.sound]
'Netlab.C131_reported' depends on axioms: [propext, Classical.choice, Quot.sound]
'Netlab.C131_always' depends on axioms: [propext, Classical.choice, Quot.sound]
'Netlab.C131_fewer' depends on axioms: [propext, Classical.choice, Quot.sound]
'Netlab.C131_unknown_vm' depends on axioms: [propext, Classical.choice, Quot.sound]
'Netlab.C131_native_local' depends on axioms: [propext, Classical.choice, Quot.sound]
'Netlab.C131_loopbacks' depends on axioms: [propext, Classical.choice, Quot.sound]
'Netlab.C131_stub' depends on axioms: [propext, Classical.choice, Quot.sound]
'Netlab.C131_stubs' depends on axioms: [propext, Quot.sound]
'Netlab.C131_ceos' depends on axioms: [propext, Classical.choice, Quot.sound]
'Netlab.C131_shared_vtep' depends on axioms: [propext, Classical.choice, Quot.sound]
'Netlab.C131_mlag_pair' depends on axioms: [propext, Classical.choice, Quot.sound]
'Netlab.C131_eos_interfaces' depends on axioms: [propext, Classical.choice, Quot.sound]
'Netlab.C132_hosts' depends on axioms: [propext, Classical.choice, Quot.sound]
'Netlab.C132_crash' depends on axioms: [propext, Classical.choice, Quot.sound]
'Netlab.C132_gateway' depends on axioms: [propext, Classical.choice, Quot.sound]
'Netlab.C132_reachable' depends on axioms: [propext, Classical.choice, Quot.sound]
'Netlab.C132_ipv6_lost' depends on axioms: [propext]
'Netlab.C133_parameter' depends on axioms: [propext, Classical.choice, Quot.sound]
'Netlab.C133_start' depends on axioms: [propext, Classical.choice, Quot.sound]
'Netlab.C133_stop' depends on axioms: [propext, Classical.choice, Quot.sound]
'Netlab.C133_accepted' depends on axioms: [propext, Classical.choice, Quot.sound]
'Netlab.C133_default_runtime' depends on axioms: [propext, Quot.sound]
'Netlab.C133_instance' depends on axioms: [propext, Classical.choice, Quot.sound]
'Netlab.C133_rows' depends on axioms: [propext, Quot.sound]
'Netlab.C133_unrelated_container' depends on axioms: [propext]
'Netlab.C133_started' depends on axioms: [propext, Quot.sound]
'Netlab.C133_vagrant' depends on axioms: [propext, Classical.choice, Quot.sound]
'Netlab.C133_docker' depends on axioms: [propext, Classical.choice, Quot.sound]
'Netlab.C133_address' depends on axioms: [propext]
'Netlab.C133_running' depends on axioms: [propext, Classical.choice, Quot.sound]
'Netlab.C134_mgmt_network' depends on axioms: [propext, Classical.choice, Quot.sound]
'Netlab.C134_node_addresses' depends on axioms: [propext, Quot.sound]
'Netlab.C134_mgmt_crash' depends on axioms: [propext, Classical.choice, Quot.sound]
'Netlab.C134_mgmt_wrong' depends on axioms: [propext, Classical.choice, Quot.sound]
'Netlab.C134_links' depends on axioms: [propext, Classical.choice, Quot.sound]
'Netlab.C134_bridge_names' depends on axioms: [propext, Classical.choice, Quot.sound]
'Netlab.C134_bridges' depends on axioms: [propext, Classical.choice, Quot.sound]
'Netlab.C134_capture_interface' depends on axioms: [propext, Classical.choice, Quot.sound]
'Netlab.C134_capture_host' depends on axioms: [propext, Classical.choice, Quot.sound]
'Netlab.C134_capture_sound' depends on axioms: [propext, Quot.sound]
'Netlab.C134_capture_wrong' depends on axioms: [propext]
'Netlab.C135_template' depends on axioms: [propext, Quot.sound]
'Netlab.C135_files' depends on axioms: [propext, Classical.choice, Quot.sound]
'Netlab.C135_plain' depends on axioms: [propext, Classical.choice, Quot.sound]
'Netlab.C135_other_node' depends on axioms: [propext, Classical.choice, Quot.sound]
'Netlab.C135_startup' depends on axioms: [propext, Classical.choice, Quot.sound]
'Netlab.C135_own_file' depends on axioms: [propext, Classical.choice, Quot.sound]
'Netlab.C135_archive' depends on axioms: [propext, Classical.choice, Quot.sound]
'Netlab.C136_plain' depends on axioms: [propext, Classical.choice, Quot.sound]
'Netlab.C136_lag' depends on axioms: [propext, Classical.choice, Quot.sound]
'Netlab.C136_peer' depends on axioms: [propext, Classical.choice, Quot.sound]
'Netlab.C136_peers' depends on axioms: [propext, Classical.choice, Quot.sound]
'Netlab.C136_groups' depends on axioms: [propext, Classical.choice, Quot.sound]
'Netlab.C136_nothing_else' depends on axioms: [propext, Classical.choice, Quot.sound]
'Netlab.C136_all_processed' depends on axioms: [propext, Classical.choice, Quot.sound]
'Netlab.C136_invalid' depends on axioms: [propext, Classical.choice, Quot.sound]
'Netlab.C136_empty_members' depends on axioms: [propext, Quot.sound]
'Netlab.C136_empty_peer' depends on axioms: [propext, Quot.sound]
'Netlab.C137_support' depends on axioms: [propext, Classical.choice, Quot.sound]
'Netlab.C137_unicast' depends on axioms: [propext, Classical.choice, Quot.sound]
'Netlab.C137_settings' depends on axioms: [propext, Classical.choice, Quot.sound]
'Netlab.C137_node_parameters' depends on axioms: [propext, Quot.sound]
'Netlab.C137_module' depends on axioms: [propext, Quot.sound]
'Netlab.C138_members' depends on axioms: [propext, Classical.choice, Quot.sound]
'Netlab.C138_connected' depends on axioms: [propext, Classical.choice, Quot.sound]
'Netlab.C138_isolated' depends on axioms: [propext, Classical.choice, Quot.sound]
'Netlab.C138_static_clash' depends on axioms: [propext, Classical.choice, Quot.sound]
'Netlab.C139_restart' depends on axioms: [propext, Classical.choice, Quot.sound]
'Netlab.C139_topology_rejected' does not depend on any axioms
'Netlab.C140_existing' depends on axioms: [propext, Quot.sound]
'Netlab.C140_success' depends on axioms: [propext, Classical.choice, Quot.sound]
'Netlab.C140_removed' depends on axioms: [propext, Classical.choice, Quot.sound]
'Netlab.C140_nested' does not depend on any axioms
'Netlab.C141_output' depends on axioms: [propext, Classical.choice, Quot.sound]
'Netlab.C141_archive' depends on axioms: [propext, Classical.choice, Quot.sound]
'Netlab.C141_tarball_name' depends on axioms: [propext, Classical.choice, Quot.sound]
'Netlab.C141_instance_tarball' depends on axioms: [propext, Classical.choice, Quot.sound]
'Netlab.C142_reported' depends on axioms: [propext, Classical.choice, Quot.sound]
'Netlab.C142_clean' depends on axioms: [propext, Classical.choice, Quot.sound]
'Netlab.C143_nodes' depends on axioms: [propext, Classical.choice, Quot.sound]
'Netlab.C143_endpoints' depends on axioms: [propext, Classical.choice, Quot.sound]
'Netlab.C143_connected' depends on axioms: [propext, Classical.choice, Quot.sound]
'Netlab.C143_interfaces' depends on axioms: [propext, Classical.choice, Quot.sound]
'Netlab.C143_attributes' depends on axioms: [propext]
'Netlab.C143_interface_names' depends on axioms: [propext, Classical.choice, Quot.sound]
'Netlab.C143_short_names' depends on axioms: [propext, Classical.choice, Quot.sound]
'Netlab.C144_reported' depends on axioms: [propext, Classical.choice, Quot.sound]
'Netlab.C144_vrfs' depends on axioms: [propext, Classical.choice, Quot.sound]
'Netlab.C144_attributes' depends on axioms: [propext, Classical.choice, Quot.sound]
'Netlab.C145_devices' depends on axioms: [propext, Classical.choice, Quot.sound]
'Netlab.C145_images' depends on axioms: [propext, Classical.choice, Quot.sound]
'Netlab.C145_support' depends on axioms: [propext, Classical.choice, Quot.sound]
'Netlab.C145_support_yaml' depends on axioms: [propext, Classical.choice, Quot.sound]
'Netlab.C145_support_yaml_all' depends on axioms: [propext, Classical.choice, Quot.sound]
'Netlab.C145_modules' depends on axioms: [propext, Classical.choice, Quot.sound]
'Netlab.C145_modules_yaml' depends on axioms: [propext, Classical.choice, Quot.sound]
'Netlab.C145_features_yaml' depends on axioms: [propext, Classical.choice, Quot.sound]
'Netlab.C145_columns' depends on axioms: [propext, Classical.choice, Quot.sound]
'Netlab.C145_cells' depends on axioms: [propext]
'Netlab.C145_support_yaml_lost' depends on axioms: [propext, Classical.choice, Quot.sound]
'Netlab.C146_action' depends on axioms: [propext, Classical.choice, Quot.sound]
'Netlab.C146_once' depends on axioms: [propext, Classical.choice, Quot.sound]
'Netlab.C146_repeated' depends on axioms: [propext, Classical.choice, Quot.sound]
'Netlab.C146_precedence' depends on axioms: [propext, Quot.sound]
'Netlab.C146_tests' depends on axioms: [propext, Classical.choice, Quot.sound]
'Netlab.C147_parse' depends on axioms: [propext, Classical.choice, Quot.sound]
'Netlab.C147_module' depends on axioms: [propext, Classical.choice, Quot.sound]
'Netlab.C147_settings' depends on axioms: [propext, Classical.choice, Quot.sound]
'Netlab.C147_truncated' depends on axioms: [propext, Classical.choice, Quot.sound]
'Netlab.C147_outputs' depends on axioms: [propext, Quot.sound]
'Netlab.C147_unknown' depends on axioms: [propext, Quot.sound]
'Netlab.C147_yaml' depends on axioms: [propext, Classical.choice, Quot.sound]
'Netlab.C147_tools' depends on axioms: [propext, Classical.choice, Quot.sound]
'Netlab.C147_tools_empty' depends on axioms: [propext]
'Netlab.C148_unchanged' depends on axioms: [propext, Classical.choice, Quot.sound]
'Netlab.C148_copy' depends on axioms: [propext, Classical.choice, Quot.sound]
'Netlab.C148_merge' depends on axioms: [propext, Classical.choice, Quot.sound]
'Netlab.C148_valid' depends on axioms: [propext, Classical.choice, Quot.sound]
'Netlab.C148_missing' depends on axioms: [propext, Classical.choice, Quot.sound]
'Netlab.C148_order' depends on axioms: [propext, Quot.sound]
'Netlab.C149_inspect' depends on axioms: [propext, Classical.choice, Quot.sound]
'Netlab.C149_colon' depends on axioms: [propext, Classical.choice, Quot.sound]
'Netlab.C149_equal' depends on axioms: [propext, Classical.choice, Quot.sound]
'Netlab.C149_attributes' depends on axioms: [propext]
'Netlab.C149_interface' depends on axioms: [propext, Classical.choice, Quot.sound]
'Netlab.C149_files' depends on axioms: [propext, Quot.sound]
'Netlab.C150_entry' depends on axioms: [propext, Classical.choice, Quot.sound]
'Netlab.C150_prefix' depends on axioms: [propext, Classical.choice, Quot.sound]
'Netlab.C150_objects' depends on axioms: [propext, Quot.sound]
'Netlab.C150_errors' depends on axioms: [propext, Quot.sound]
'Netlab.C150_all_errors' depends on axioms: [propext, Classical.choice, Quot.sound]
'Netlab.C150_data' depends on axioms: [propext, Classical.choice, Quot.sound]
'Netlab.C150_idempotent' depends on axioms: [propext, Classical.choice, Quot.sound]
'Netlab.C151_vm_unique' depends on axioms: [propext]
'Netlab.C151_vm_labs' depends on axioms: [propext]
'Netlab.C151_vm_clash' depends on axioms: [propext]
'Netlab.C151_vm_dot' depends on axioms: [propext, Classical.choice, Quot.sound]
'Netlab.C151_containers' depends on axioms: [propext]
'Netlab.C151_box' depends on axioms: [propext, Classical.choice, Quot.sound]
'Netlab.C151_box_version' depends on axioms: [propext]
'Netlab.C151_links' depends on axioms: [propext, Quot.sound]
'Netlab.C151_external' depends on axioms: [propext, Classical.choice, Quot.sound]
'Netlab.C152_prefix' depends on axioms: [propext, Quot.sound]
'Netlab.C152_ready' depends on axioms: [propext, Quot.sound]
'Netlab.C152_stop' depends on axioms: [propext, Quot.sound]
'Netlab.C152_complete' depends on axioms: [propext, Quot.sound]
'Netlab.C152_sudo' depends on axioms: [propext, Quot.sound]
'Netlab.C152_pip' depends on axioms: [propext, Classical.choice, Quot.sound]
'Netlab.C152_no_flags' depends on axioms: [propext, Classical.choice, Quot.sound]
'Netlab.C152_sudo_lost' depends on axioms: [propext, Quot.sound]
'Netlab.C153_confirm' depends on axioms: [propext, Classical.choice, Quot.sound]
'Netlab.C153_stop' depends on axioms: [propext, Classical.choice, Quot.sound]
'Netlab.C153_stopped' depends on axioms: [propext, Classical.choice, Quot.sound]
'Netlab.C153_remove' depends on axioms: [propext, Classical.choice, Quot.sound]
'Netlab.C153_conflict' depends on axioms: [propext, Classical.choice, Quot.sound]
'Netlab.C153_all' depends on axioms: [propext, Classical.choice, Quot.sound]
'Netlab.C153_nodes' depends on axioms: [propext, Classical.choice, Quot.sound]
'Netlab.C153_log' depends on axioms: [propext, Classical.choice, Quot.sound]
'Netlab.C153_docker' depends on axioms: [propext, Classical.choice, Quot.sound]
'Netlab.C153_no_containers' depends on axioms: [propext, Classical.choice, Quot.sound]
'Netlab.C154_not_started' depends on axioms: [propext, Classical.choice, Quot.sound]
'Netlab.C154_answer_ignored' depends on axioms: [propext, Classical.choice, Quot.sound]
'Netlab.C154_success' depends on axioms: [propext, Classical.choice, Quot.sound]
'Netlab.C154_order' depends on axioms: [propext, Classical.choice, Quot.sound]
'Netlab.C154_interrupt' depends on axioms: [propext, Classical.choice, Quot.sound]
'Netlab.C154_exception' depends on axioms: [propext, Classical.choice, Quot.sound]
'Netlab.C154_installed' depends on axioms: [propext, Classical.choice, Quot.sound]
'Netlab.C154_left_behind' depends on axioms: [propext, Classical.choice, Quot.sound]
'Netlab.C154_disk' depends on axioms: [propext, Classical.choice, Quot.sound]
'Netlab.C154_wrong_disk' depends on axioms: [propext, Classical.choice, Quot.sound]
'Netlab.C154_version' depends on axioms: [propext, Classical.choice, Quot.sound]
'Netlab.C154_skip_preinstall' depends on axioms: [propext, Classical.choice, Quot.sound]
'Netlab.C155_reported' depends on axioms: [propext, Classical.choice, Quot.sound]
'Netlab.C155_gateway' depends on axioms: [propext, Classical.choice, Quot.sound]
'Netlab.C155_no_false_alarm' depends on axioms: [propext, Classical.choice, Quot.sound]
'Netlab.C155_missed' does not depend on any axioms
'Netlab.C156_warned' depends on axioms: [propext, Classical.choice, Quot.sound]
'Netlab.C156_once' depends on axioms: [propext, Classical.choice, Quot.sound]
'Netlab.C156_same_nodes' depends on axioms: [propext, Classical.choice, Quot.sound]
'Netlab.C156_text' depends on axioms: [propext, Classical.choice, Quot.sound]
'Netlab.C156_quiet' depends on axioms: [propext, Classical.choice, Quot.sound]
'Netlab.C156_links' depends on axioms: [propext, Classical.choice, Quot.sound]
'Netlab.C156_false_alarm' depends on axioms: [propext, Classical.choice, Quot.sound]
'Netlab.C157_last_request' depends on axioms: [propext, Quot.sound]
'Netlab.C157_unchanged' depends on axioms: [propext, Quot.sound]
'Netlab.C157_stays_on' depends on axioms: [propext, Classical.choice, Quot.sound]
'Netlab.C157_verbose' depends on axioms: [propext, Quot.sound]
'Netlab.C157_debug' depends on axioms: [propext, Quot.sound]
'Netlab.C157_returned' does not depend on any axioms
'Netlab.C158_restored' depends on axioms: [propext, Classical.choice, Quot.sound]
'Netlab.C158_others' depends on axioms: [propext]
'Netlab.C158_clean' depends on axioms: [propext, Quot.sound]
'Netlab.C159_servers' depends on axioms: [propext, Classical.choice, Quot.sound]
'Netlab.C159_same' depends on axioms: [propext, Classical.choice, Quot.sound]
'Netlab.C159_vrf' depends on axioms: [propext, Classical.choice, Quot.sound]
'Netlab.C159_errors' depends on axioms: [propext, Classical.choice, Quot.sound]
'Netlab.C160_accepted' depends on axioms: [propext, Quot.sound]
'Netlab.C160_reported' depends on axioms: [propext]
'Netlab.C160_complete' depends on axioms: [propext, Quot.sound]
'Netlab.C161_nodes' depends on axioms: [propext, Classical.choice, Quot.sound]
'Netlab.C161_only' depends on axioms: [propext, Classical.choice, Quot.sound]
'Netlab.C161_pools' depends on axioms: [propext, Classical.choice, Quot.sound]
'Netlab.C161_node_all' depends on axioms: [propext, Classical.choice, Quot.sound]
'Netlab.C162_static_transit' depends on axioms: [propext, Classical.choice, Quot.sound]
'Netlab.C162_reported' depends on axioms: [propext, Classical.choice, Quot.sound]
'Netlab.C162_auto_transit' depends on axioms: [propext, Classical.choice, Quot.sound]
'Netlab.C162_auto_clash' depends on axioms: [propext, Quot.sound]
