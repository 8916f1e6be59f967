{
 "C01": {
  "status": "proved",
  "note": "The range claim needs start <= max; C01_start_above_limit_not_detected shows the limit is not checked otherwise."
 },
 "C02": {
  "status": "proved",
  "note": "Validation followed by transformation. The 150 limit for static ids is bypassed by numeric strings (C02_numeric_string_bypasses_limit); the 250 limit always holds."
 },
 "C03": {
  "status": "proved",
  "note": ""
 },
 "C04": {
  "status": "proved",
  "note": ""
 },
 "C05": {
  "status": "proved",
  "note": ""
 },
 "C06": {
  "status": "proved",
  "note": ""
 },
 "C07": {
  "status": "proved",
  "note": "A gateway counted from the end of the prefix is not skipped (C07_negative_gateway_not_skipped); the positive-gateway claim is C07_sequential_skips_gateway."
 },
 "C08": {
  "status": "proved",
  "note": ""
 },
 "C09": {
  "status": "proved",
  "note": "Success of the automatic choice is proved for prefixes with more than two addresses; C09_single_node_on_31_fails and C09_gateway_at_the_end_of_30 are the corner cases where the claim is false of the code."
 },
 "C51": {
  "status": "proved",
  "note": ""
 },
 "C10": {
  "status": "proved",
  "note": "A user-specified index that is already used is accepted without an error: C10_static_index_not_checked."
 },
 "C11": {
  "status": "proved",
  "note": "For LAG member links the claim needs the default start value 1 (C11_default_start_is_positional); C11_lag_member_index_collision is the counterexample for other start values."
 },
 "C12": {
  "status": "proved",
  "note": ""
 },
 "C52": {
  "status": "proved",
  "note": ""
 },
 "C53": {
  "status": "proved",
  "note": "C53_generated_name_too_long: generated names exceed the limit from link index 10000 on."
 },
 "C13": {
  "status": "proved",
  "note": "Sorting, loop detection, stability; used by modules and plugins."
 },
 "C19": {
  "status": "proved",
  "note": "Errors are exact; acceptance is characterised for all module lists."
 },
 "C54": {
  "status": "proved",
  "note": "Node config lists are assumed to have no duplicates."
 },
 "C14": {
  "status": "proved",
  "note": "C14_deep_hierarchy_aborted: a legal hierarchy of 101 nested groups passes the recursion check and is then aborted as recursive."
 },
 "C15": {
  "status": "proved",
  "note": "Group data vs node data, innermost group wins, provenance, unused modules, device and module lists."
 },
 "C16": {
  "status": "proved",
  "note": "Exact list of templates; C16_group_all_is_not_outermost records that group all may follow other groups."
 },
 "C17": {
  "status": "proved",
  "note": "Without the restriction associativity is false: C17_not_associative."
 },
 "C18": {
  "status": "proved",
  "note": "Most specific scope wins, provenance, non-propagating parameters. Group values are part of the node scope (C15)."
 },
 "C43": {
  "status": "proved",
  "note": "Termination for all tables including loops; precedence along the chain of ancestors for tables without loops; a loop is silently broken (C43_loop_not_reported)."
 },
 "C48": {
  "status": "proved",
  "note": "Topology over files in order, environment over everything when intermediate settings are dictionaries; findings: variable lost below a scalar, explicit empty source list ignored."
 },
 "C20": {
  "status": "proved",
  "note": "Model/Vlan.lean covers vlan.py (ID set, validation of VLAN IDs, merge of global VLANs into nodes) and vxlan.py (static VNI registration and VNI assignment). C20_vni_above_limit shows that start VNI plus VLAN ID is not checked against 16777215."
 },
 "C21": {
  "status": "proved",
  "note": "Without global VRFs static values of node VRFs are not registered, and an automatic RD can equal a static one (C21_static_rd_not_registered). A static RD of a node copy is lost when the copy has no id (C21_node_rd_overwritten); an RD set to null is never generated (C21_null_rd_stays_null)."
 },
 "C22": {
  "status": "proved",
  "note": "C22_transit_vnis_differ shows that the only possible clash is an automatic VNI equal to start_transit_vni with a static VNI of that value; C22_first_auto_vni_clashes shows that it happens. VNIs of VLANs are the subject of C162."
 },
 "C23": {
  "status": "proved",
  "note": "Reachability of the IBGP endpoint is a part of the statement; without it sessions are one-sided (C23_ibgp_one_sided)."
 },
 "C24": {
  "status": "proved",
  "note": "The code keeps a session towards a router with bgp: False on its interface (C24_disabled_end_one_sided), does not require a common address family (C24_no_common_address_family) and rejects the second session on unnumbered multi-access links (C24_unnumbered_second_neighbor_error). Device features and VRF attributes other than bgp: False are not modelled."
 },
 "C55": {
  "status": "proved",
  "note": "Router IDs are compared as text (C55_lowest_is_textual)."
 },
 "C25": {
  "status": "proved",
  "note": "Node entries are not sorted when nothing is added (C25_not_sorted_when_unchanged); importing a global community list used in an imported policy crashes the program (C25_global_community_import_crashes)."
 },
 "C26": {
  "status": "proved",
  "note": "A min/max limit specified only for the other address family is left in the entry as a dictionary (C26_limit_dictionary_left)."
 },
 "C27": {
  "status": "proved",
  "note": ""
 },
 "C28": {
  "status": "proved",
  "note": "Nesting of 20 or more levels is rejected (C28_depth_20_rejected)."
 },
 "C29": {
  "status": "proved",
  "note": "C29_gateway_on_broadcast_address: both exceptional identifiers are accepted without an error."
 },
 "C30": {
  "status": "proved",
  "note": ""
 },
 "C31": {
  "status": "proved",
  "note": ""
 },
 "C56": {
  "status": "proved",
  "note": ""
 },
 "C32": {
  "status": "proved",
  "note": "C32_accepted_iff covers all (ASCII) strings; defect recorded: the integer 0 is accepted (C32_zero_accepted) and a plain number above 65535 written as a string is rejected."
 },
 "C33": {
  "status": "proved",
  "note": "C33_string_out_of_range: for every upper limit there is a numeric string beyond that limit that is accepted."
 },
 "C34": {
  "status": "proved",
  "note": "C34_unknown_reported covers unknown attributes at any depth; definitions of nested values have to come from one namespace. C34_no_false_alarm is the other direction for unrestricted attributes."
 },
 "C57": {
  "status": "proved",
  "note": ""
 },
 "C50": {
  "status": "proved",
  "note": "Exact membership, no duplicates, own VTEP never listed, sorted node-level union, nodes with other flooding unchanged. Defect proved as C50_disabled_vlan_flooded: a VLAN excluded with `vni: false` gets a flooding list too, made of the nodes that exclude any VLAN."
 },
 "C45": {
  "status": "proved",
  "note": "Defects proved: C45_no_module_not_disabled (a node without the BFD module keeps BFD on interfaces enabling it explicitly), C45_false_families_enable (`ospf.bfd: {ipv4: false, ipv6: false}` enables BFD)."
 },
 "C47": {
  "status": "proved",
  "note": "Text formats of addresses are parameters, assumed injective. Static addresses are compared as text. Defect proved: C47_broadcast_assigned (the node with id 155 gets the broadcast address of the default management pool). Node ids are distinct and at most 250 by C02."
 },
 "C49": {
  "status": "proved",
  "note": ""
 },
 "C44": {
  "status": "proved",
  "note": "The operating system and the pathlib functions are parameters of the model. Defect proved: C44_package_topology_path_lost."
 },
 "C35": {
  "status": "proved",
  "note": "fnmatch is a parameter of the model. C35_duplicate_node: a node reached in two ways is listed twice."
 },
 "C36": {
  "status": "proved",
  "note": "Transition system with five-step status file updates, arbitrary interleavings and crashes. C36_owner_kept and C36_one_directory hold for all histories without removal of the instance, C36_removed_by_owner for all histories in which commands on the instance do not overlap. Defects proved with concrete histories: C36_down_race (netlab down removes an instance started by another directory after its check), C36_dry_run_down_forgets (netlab down --dry-run removes the status entry of a running lab), C36_crash_mid_write (a crash between truncation and write forgets all instances), C36_unlocked_read (netlab down reads the status file without a lock)."
 },
 "C37": {
  "status": "proved",
  "note": "Invariant over all histories with crashes. Exceptions proved with concrete histories: C37_concurrent_up, C37_concurrent_down (commands overlapping in a directory), C37_abort_unlocks (answering no to the external provider prompt of netlab up --snapshot unlocks a started lab). recreate_secondary_config, which rewrites the secondary provider file during lab start, is not modelled."
 },
 "C46": {
  "status": "proved",
  "note": "The five build steps of the DHCP pools are modelled; address parsing (ip) and make_id are parameters. Statement refined: the code excludes addresses of VLAN interfaces and of interfaces on links that themselves have DHCP clients. C46_other_access_link proves that a static host attached to the same VLAN through another access link (without DHCP clients) is not excluded."
 },
 "C38": {
  "status": "proved",
  "note": "Device responses and clock readings are an arbitrary sequence. Statement refined to what holds: a mandatory (stop_on_error) test of level warning also yields exit code 1; the exit code theorem assumes that SuzieQ tests with a validation expression ask for all records to be valid, the attempt theorem assumes that a failed exec command also fails its check. Negations proved without these assumptions: C38_suzieq_any (exit code 1 although all tests passed), C38_exec_failure_lost (a failing exec command is ignored when the test has a wait time and no validation expression), C38_suzieq_error_passes (a failed SuzieQ command passes a test that expects data)."
 },
 "C39": {
  "status": "proved",
  "note": "Findings: recursive components are not detected (C39_recursive_component: a component including itself never stops expanding; the code ends in a Python RecursionError), and a component link attached to a nested component is expanded into a link to a nonexistent node without an error at this stage (C39_dangling_link). Name clashes are errors, so the statement is about expansions without errors; C39_terminates has no such hypothesis."
 },
 "C40": {
  "status": "proved",
  "note": "Node name formatting (Python f-string evaluation) is a parameter. Exceptions, proved: leafs and spines in the same group leave only the spines in the group (C40_shared_group); the same names for leafs and spines give fewer nodes and one-ended links without an error (C40_same_names)."
 },
 "C41": {
  "status": "proved",
  "note": "About clone_node for one node. Links are in the normalized form (C58). Exceptions, proved: cloning one of two switches in a link aggregation group drops the members connected to the other switch (C41_lag_link_lost; in C41_links a cloned group has only members attached to the node); the default name pattern truncates names to 13 characters, so clones of two nodes may be merged into one node without an error (C41_truncated_names)."
 },
 "C58": {
  "status": "proved",
  "note": "Finding: a mistyped node name in a link string is accepted when it starts with the name of a node (C58_prefix_accepted); the link is then attached to a node that does not exist."
 },
 "C42": {
  "status": "proved",
  "note": "All cases of peer addresses, backup addresses and MAC addresses. C42_two_peers: a switch with two peer links is accepted and its peers are not symmetrical. C42_mac_wraps: peer group identifiers have no upper limit, the MAC address uses them modulo 65536."
 },
 "C59": {
  "status": "proved",
  "note": "Defects proved: C59_unsupported_accepted (1:3 LAG and a triangle are accepted), C59_member_number_collision (numbers set on members are not remembered), C59_mlag_mismatch (MLAG peers with different numbers), C59_member_captured (a member of one LAG ends in another LAG when the number of the LAG is equal to the index of a later LAG link), C59_lag_between_peers (a LAG between two MLAG peers with members listing the nodes in different order has both nodes on both sides)."
 },
 "C60": {
  "status": "proved",
  "note": "Defects proved: C60_ipv6_route_lost (dual-stack route with one directly connected and one remote next-hop address loses a prefix), C60_crash (dual-stack prefix with a single next-hop address raises an exception), C60_not_an_address (the next hop through a remote unnumbered host is the value True)."
 },
 "C61": {
  "status": "proved",
  "note": "C61_duplicate_and_ignored: user-defined dual-stack entries are duplicated, entries with pool/prefix/node are ignored. The search for DHCP clients is not modelled."
 },
 "C62": {
  "status": "proved",
  "note": "Defects proved about the model: two native VLANs on a link are accepted (C62_two_natives) and same-named VLANs of two nodes are trunked (C62_local_names) because the checks in netsim/modules/vlan.py:263-287 are never reached; the native VLAN check skips interfaces without VLAN attributes (C62_native_unchecked). That's why the statement is limited to interfaces with VLAN attributes and to links with a single native VLAN."
 },
 "C63": {
  "status": "proved",
  "note": "The choice of an element of a Python set (list(set)[0]) is a parameter `pick` of the model. C63_members assumes that native VLANs on the link do not differ (C62_two_natives shows they can)."
 },
 "C64": {
  "status": "proved",
  "note": "For nodes without VLAN interfaces or bridge groups before the process. Defect: a VLAN in bridge mode with an address specified in the VLAN results in a VLAN interface with that address (C64_bridge_address). Assigned prefixes and IP addresses are opaque values."
 },
 "C65": {
  "status": "proved",
  "note": "For links where no node is attached twice and unique node names; a node attached twice to a VLAN link is listed twice (C65_attached_twice). Stub role for nodes that are not hosts."
 },
 "C66": {
  "status": "proved",
  "note": "Model of map_trunk_vlans, rename_vlan_subinterfaces (node-local part; neighbor renaming not modelled), cleanup_routed_native_vlan, check_mixed_trunks and check_mixed_native_trunk. Input conditions: unique interface indices, parent links attached to ordinary interfaces, loopback flag set on parentless member interfaces (all established by earlier steps). Name uniqueness needs a template containing the parent name and the number or the VLAN ID; all shipped device templates do."
 },
 "C67": {
  "status": "proved",
  "note": "C67_ldp_interfaces, C67_bgp_neighbors, C67_6pe_symmetric and C67_supported are the claims, and C67_accepted shows which settings are accepted; the settings must not contain empty lists or disabled address families. Findings: C67_disabled_af_disables_all (`False` for one address family, documented, silently disables the feature for all of them), C67_ldp_true_crashes (`mpls.ldp: True` on an interface crashes), C67_ldp_false_ignored (`mpls.ldp: False` on an interface has no effect), C67_ldp_support_not_checked (device support for LDP is not checked), C67_vpn_on_ebgp_session (VPN address families on EBGP sessions, contrary to documentation), C67_6pe_needs_lu_support and C67_6pe_types_not_checked (6PE validation looks at the BGP-LU setting)."
 },
 "C68": {
  "status": "proved",
  "note": "C68_session_attributes; it holds with route servers too. Finding: C68_local_as_sessions (IBGP sessions created with local_as get neither IBGP nor EBGP attributes and keep the attributes copied from the other end of the link)."
 },
 "C69": {
  "status": "proved",
  "note": "C69_route_servers, for route servers set with node attributes. Findings: C69_interface_rs_depends_on_order (with `bgp.rs` set on an interface, as documented, the session between a route server and its client is removed on both nodes when the route server is listed before the client), C69_removed_on_one_side (a session is removed on one of its nodes only when the route server is in the same AS as the other node)."
 },
 "C70": {
  "status": "proved",
  "note": "C70_accepted_iff and C70_as_numbers. A node in the global list of route reflectors is one even when its own attribute says otherwise."
 },
 "C71": {
  "status": "proved",
  "note": "C71_link_roles, C71_vlan_roles and C71_no_role. Defect: C71_node_vlan_has_no_role (a VLAN defined in nodes never gets the role, although it connects two autonomous systems)."
 },
 "C72": {
  "status": "proved",
  "note": "C72_advertised_prefixes, C72_address_families, C72_activation and C72_originated. Defect: C72_localas_ibgp_not_active (the code that makes IBGP imply IBGP built with local AS looks in the wrong dictionary, so these sessions are not active when bgp.activate is used)."
 },
 "C73": {
  "status": "proved",
  "note": "C73_communities and C73_accepted_iff. Defect: C73_unsupported_keyword_accepted (a keyword the device marks as not supported is accepted and the community is silently not propagated)."
 },
 "C74": {
  "status": "proved",
  "note": "C74_services and C74_targets_differ. Names of VLANs and VRFs are keys of dictionaries, so they do not repeat. Defect: C74_configured_evi_may_clash (a configured EVPN instance equal to the id of another VLAN merges the two services without an error)."
 },
 "C75": {
  "status": "proved",
  "note": "C75_neighbors, C75_symmetric, C75_lists, C75_route_distinguishers, C75_distinguishers_differ, C75_accepted_iff and C75_irb. Defects: C75_vlan_and_vrf_share_rd (a VLAN and a VRF with equal EVPN instances share the route distinguisher) and C75_rejected_due_to_other_vrf (the VRF of a VLAN is compared with a substring test, so a node is rejected because of VLANs of other VRFs)."
 },
 "C76": {
  "status": "proved",
  "note": "C76_sessions, C76_nodes and C76_accepted_iff. Defects: C76_later_links_not_found (all sessions get the same link index, and links added later are not at the position given by their index), C76_missing_loopbacks_accepted (a session between two VRFs without loopbacks is accepted with global addresses and no source), C76_ipv6_list_wins (on dual-stack sessions the list for IPv6 sessions replaces the one for IPv4 sessions)."
 },
 "C77": {
  "status": "proved",
  "note": "C77_reference_lists."
 },
 "C78": {
  "status": "proved",
  "note": "Defects proved: attributes with the value zero (allowed by attribute definitions) are ignored (C78_zero_ignored); localas_ibgp neighbors keep the policy attributes of the remote end (C78_localas_ibgp_keeps_attributes); without the routing module, acceptance depends on the order of interfaces (C78_order_of_interfaces); a generated route map replaces the user's routing policy with the same bp- name (C78_same_name_replaced). Support checks of the device and of the routing module are parameters."
 },
 "C79": {
  "status": "proved",
  "note": "Defects proved: an empty set in an entry with a shortcut crashes (C79_empty_set_crashes); a policy without entries that is not a global policy crashes instead of being reported (C79_missing_policy_crashes); a policy using a global community list crashes, because the list is expanded before it is imported again (C79_global_community_crashes)."
 },
 "C80": {
  "status": "proved",
  "note": "Defects proved: members of a default group are lost when the topology defines the same group without members, contrary to the documentation (C80_default_members_lost); a group listed in a node can have the name of another node (C80_node_group_clash). Validation of group attributes is not modelled."
 },
 "C81": {
  "status": "proved",
  "note": "Defects proved: stub_loopback overrides the link type set by the user (C81_type_overridden), disable does not remove a member of a group link (C81_disabled_member_kept), a group link in a group link and nodes specified in a group link disappear without an error (C81_nested_group_lost, C81_group_nodes_lost), a member that is not a link crashes (C81_member_crash)."
 },
 "C82": {
  "status": "proved",
  "note": "Defects proved: a VRF with an IPv4 loopback and no other interfaces does not enable VPNv4 on the node (C82_loopback_no_vpn); a requested loopback is not created, without an error, when the pool has no addresses (C82_loopback_lost); loopback: False in a VRF keeps the VRF module (C82_false_loopback)."
 },
 "C83": {
  "status": "proved",
  "note": "Proved with the exact conditions. Code defects: a request to disable an import from a source the device does not support is rejected (C83_disabled_rejected); an explicit VRF import on a device that cannot import routes in VRFs crashes, the error message uses an unset variable (C83_vrf_import_crash); automatic VRF imports are not limited to supported sources (C83_auto_unsupported); automatic imports of RIP routes are never removed because they are stored as `rip` and looked for as `ripv2` (C83_rip_kept); the removal crashes when the importing protocol was not processed yet (C83_removal_crash)."
 },
 "C84": {
  "status": "proved",
  "note": "Defects: prefix6 shorter than the IPv6 pool prefix is accepted (unusable pool, or a crash for the loopback pool; C84_prefix6_unchecked), unnumbered: False removes all prefixes of a pool (C84_numbered_removed), the prefix length of the management pool is not checked (C84_mgmt_unchecked), static prefixes of a named prefix are overridden by pool prefixes (C84_static_overridden). MAC prefixes and evaluation of shared defaults are not modelled."
 },
 "C85": {
  "status": "proved",
  "note": "Defects: a link of unmanaged devices with a changed number of nodes stays without interfaces (C85_ghost_link); a virtual link losing a node becomes a physical stub link with a bridge (C85_virtual_link). Neighbor lists of interfaces still mention unmanaged devices; they are not modelled."
 },
 "C86": {
  "status": "proved",
  "note": "Interfaces without a name are a fatal error and are not modelled; the order of configuration templates is C54."
 },
 "C87": {
  "status": "proved",
  "note": "Defects proved: C87_vlan_client_ignored, C87_unnumbered_server, C87_relay_errors. A missing relay feature is one error (the code reports more). Pools of DHCP servers are in C46."
 },
 "C88": {
  "status": "proved",
  "note": "Defects proved: C88_colon_crash, C88_localas_kept. Neighbors in VRFs are not touched by the plugin and not modelled."
 },
 "C89": {
  "status": "proved",
  "note": "C89_frr_present, C89_eos_present, C89_frr_missing_sound, C89_eos_missing_sound, C89_frr_missing_single, C89_frr_community, C89_frr_community_missing and C89_eos_community characterise the outcome. Defects proved: C89_missing_two (absence tests with two attributes), C89_community_skips, C89_community_substring, C89_community_paths, C89_eos_vrf. The text returned by the device is parsed into the model's path records outside the model."
 },
 "C90": {
  "status": "proved",
  "note": "C90_result with C90_unique (the inherited port type is unambiguous), C90_accepted_iff (references to nodes and VLANs are valid), C90_disabled. Defect proved: C90_vlan_crash (an access VLAN that is not a VLAN of the node)."
 },
 "C91": {
  "status": "proved",
  "note": "C91_dict, C91_box (the hierarchy created from names), C91_dict_rejected, C91_list, C91_round_trip, C91_extra (host files are different and outside the node folder), C91_crash_iff. Defects proved: C91_common_prefix, C91_bind_lost."
 },
 "C92": {
  "status": "proved",
  "note": "C92_ports, C92_host_ports, C92_mgmt_iff, C92_mgmt_crash (an address and a pool prefix of different address families raise an exception). Defect proved: C92_port_collision. Parsing of addresses is not modelled."
 },
 "C93": {
  "status": "proved",
  "note": "C93_pad needs distinct interface indexes not lower than the first index of the device. Defects proved: a point-to-point link with a bridge name gives the name to one of its ends only (C93_bridge_one_end); an empty batch starts all machines (C93_empty_batch)."
 },
 "C94": {
  "status": "proved",
  "note": "Provider names must differ from node attributes changed in this step (ProviderNames). Defects proved: a provider requested by the device is not added to the secondary providers (C94_device_provider), and silently replaces the provider specified in the node without being checked (C94_provider_replaced)."
 },
 "C95": {
  "status": "proved",
  "note": "Loopback interfaces are modelled on top of the pool allocator, including pool attributes and checks of addresses. Two defects are proved: attributes of the loopback pool become loopback attributes and address families of the node (C95_pool_attribute); loopbacks cannot be allocated from an IPv4 pool with prefixes shorter than /31, because the network address is used (C95_ipv4_subnet). Interface names and indexes are not modelled."
 },
 "C96": {
  "status": "proved",
  "note": "The IPv4 address parser of the Python library is modelled for ASCII text; IPv6, network mask and MAC parsers are parameters. Four defects are proved: texts without a prefix length are accepted as prefixes, although the table in the code says they are not (C96_prefix_without_length); multicast prefixes are accepted on subnets, although the comment says they are not (C96_multicast_subnet); an IS-IS NET consisting of dots is accepted (C96_empty_net); booleans and negative numbers are accepted as route distinguishers (C96_strange_rd). Error messages are not modelled."
 },
 "C97": {
  "status": "proved",
  "note": "Defects: C97_isis_other_intf (an unnumbered interface that does not run IS-IS makes the IS-IS node unusable), C97_vrf_intf_params (unsupported parameters on VRF interfaces are never reported as igp_interfaces looks for an interface attribute called proto), C97_srv6_contained (a loopback prefix that contains the locator is accepted)."
 },
 "C98": {
  "status": "proved",
  "note": "Defect: C98_gateway_crash (a link with gateway: True and no global gateway data crashes the transformation; C98_gateway_ready shows that it cannot happen with global gateway data)."
 },
 "C99": {
  "status": "proved",
  "note": "Defect: C99_node_prefix (the prefix of a VLAN defined on a node is ignored when the VLAN has no links). C99_no_mode: an access interface without a VLAN mode terminates the transformation with an exception."
 },
 "C100": {
  "status": "proved",
  "note": "Defect: C100_false_feature (a feature that is not a module and is set to false stays in the features of the device, so tests for its presence succeed)."
 },
 "C101": {
  "status": "proved",
  "note": "Proved for data types of nodes and interfaces, copied and merged definitions without chained requests, and search path adjustments at any depth (a prepended path called 'append' is excluded). Defects: the result of chained copy requests depends on the order of namespaces (C101_chain_order), and copying a definition that does not exist in the source namespace results in an empty definition without an error (C101_missing_definition)."
 },
 "C102": {
  "status": "proved",
  "note": "Proved for unique node names and devices that are not called modules, custom_configs or daemons. The variables of 'all' and 'modules' groups are parameters of the model. Defects: addresses of an interface in a VRF are mixed with the addresses of a node called <node>-<vrf> (C102_vrf_name_clash); a topology group called 'modules' extends the group of nodes using modules (C102_reserved_group)."
 },
 "C103": {
  "status": "proved",
  "note": "Defects: C103_crash (unexpected list elements or valid values that are not strings crash the error message code), C103_unexpected_value (an unexpected value is returned to the caller)."
 },
 "C104": {
  "status": "proved",
  "note": "Defects: C104_repeat_twice (repeated warnings are logged again), C104_lines_counted (exit_on_error(max_err) counts lines of errors and hints), C104_quiet_hint (a quiet warning marks the disable hint as displayed), C104_init_keeps_warnings (init_log_system keeps old warnings)."
 },
 "C105": {
  "status": "proved",
  "note": "Defect (C105_unknown_tool): an unknown tool without a runtime crashes netlab after the error is reported, because the missing runtime is an empty Box used as a dictionary key."
 },
 "C106": {
  "status": "proved",
  "note": "Defects: a plugin listed in the lab topology and in system defaults, or listed under two names, is executed twice (C106_executed_twice); a _requires attribute that is not a list crashes the sorting of plugins before the error can be reported (C106_bad_requires); a plugin redirected to itself crashes netlab (C106_redirect_loop)."
 },
 "C107": {
  "status": "proved",
  "note": "Defects: the file name of the selected topology is made from the normalized version and might not exist (C107_missing_file); a versioned topology with a comparison operator in its name crashes netlab (C107_operator_crash); a CLI setting without exactly one equal sign crashes netlab even when an error was reported (C107_cli_crash); an included file replaces the existing settings with the same name (C107_include_replaces)."
 },
 "C108": {
  "status": "proved",
  "note": "Positive: C108_reported, _first_location, _collection, _reported_once, _parts_unique, _junos_names, _junos_distinct, _junos_vrf, _junos_again, _junos_master, _junos_mtu, _junos_native, _loopbacks, _ospf_index, _vsx_roles, _tagged_1, _reserved, _linux, _bundle, _unknown, _passive, _passive_value. Defects: C108_version_text, C108_ceos_text (versions compared as text, registry port taken for a version), C108_junos_clash. Not modelled: quirks that only check features and report an error, and the texts of messages."
 },
 "C109": {
  "status": "proved",
  "note": "Positive: C109_calls, _stages, _once, _no_crash, _order, _reorder_keeps, _remove, _copy, _copy_disabled, _copy_each. Defects: C109_extra_twice, C109_link_order, C109_copy_vrf_skipped, C109_copy_crash. Simplification: hooks do not change module lists during a stage."
 },
 "C110": {
  "status": "proved",
  "note": "Defects recorded as theorems: nodes without an AS number are not drawn in a graph with AS clusters (C110_host_missing); with groups and AS clusters a node is drawn in two clusters (C110_two_clusters); AS names are never used because integer keys of the AS list never match cluster names (C110_as_name); a D2 graph using groups draws only group members (C110_d2_missing); a session between a route reflector and a node with bgp.rr set to False has no direction (C110_rr_false)."
 },
 "C111": {
  "status": "proved",
  "note": "Defects recorded as theorems: neighbors know the bond interface under its real name only if the bond index equals the interface index of the member (C111_bond_peer_name); the bond name is also written into neighbor data of links that are not in the bond (C111_bond_other_link); proxy_arp: False enables proxy ARP (C111_proxy_arp_false); check.config stops at the first configuration it finds (C111_check_stops). The interface names of neighbors, format strings, and address pools are parameters or not modelled."
 },
 "C112": {
  "status": "proved",
  "note": "Defects proved as theorems: C112_bgp_no_peers, C112_bgp_missing_differs, C112_ospf_parallel, C112_isis_parallel, C112_ospf_missing_two, C112_route_missing (a prefix in the routing table passes the test that it is missing), C112_ping_ten, C112_linux_route_missing (fails for every routing table), C112_linux_route_other. Address normalisation (ipaddress) is a parameter; the texts of messages and show commands are not modelled; grep patterns have only literals and dots."
 },
 "C113": {
  "status": "proved",
  "note": "Defects: a directory with a name that has only digits gives the lab an empty name (C113_name_empty), identifiers can start with a digit (C113_id_digit), and the version of an IP prefix is not checked (`ipv4` values can be IPv6 prefixes, visible in ItemParsed). IP address parsers and named prefixes are parameters."
 },
 "C114": {
  "status": "proved",
  "note": "Defects: in a dry run `netlab up --validate` reports a failed validation because True == 1 (C114_dry_validate); a validation command that cannot be started is not reported because False == 0 (C114_missing_validate); `netlab connect` executes only the last connect command of a tool (C114_tool_last). Private keys and tool commands are evaluated before (Jinja2 and f-strings are not modelled); the operating system is a parameter."
 },
 "C115": {
  "status": "proved",
  "note": "A test with no action and no plugin crashes (C115_plugin). The JSON parser, Jinja2 and the execution of commands are parameters; times are whole seconds."
 },
 "C116": {
  "status": "proved",
  "note": "Prefixes specified in the topology are never compared with address pools, so two links can get the same addresses (C116_static_overlap). A link with an unknown pool is an error, but it still gets a prefix from the next pool (C116_unknown_pool). The theorem assumes the duplicate_address warning is enabled (the default). The loopback allocation method replaces addresses specified by the user (C116_static_lost)."
 },
 "C117": {
  "status": "proved",
  "note": "Defect shown by C117_force: 'netlab down --force' forgets the status entry and the lock of a lab that was not stopped. An interruption between truncating and writing the status file loses entries of all labs (C36), which is why the part of C117_recovery on other labs excludes that window."
 },
 "C118": {
  "status": "proved",
  "note": "Name templates of all devices are transcribed from netsim/devices and netsim/daemons with inherited values filled in; C118_unique is proved for any device data that pass the check namesOk, C118_devices for the whole table. Defects: C118_static_name (user-specified interface names are not compared with other names), C118_veth_clash (nodes with the same first ten characters of the name get the same host-side interface name on a containerlab bridge). C118_svi and C118_subif combine the templates with the VLAN interfaces created in C64/C66: names of VLAN interfaces and VLAN subinterfaces of a node are different when every VLAN of the node has its own identifier."
 },
 "C119": {
  "status": "proved",
  "note": "The conditions are needed: C119_static_id_shifts (a new node with the identifier of an existing node changes identifiers, loopback and link addresses of existing nodes), C119_loopback_pool_shifts (the loopback of a new node takes prefixes from the pool of link prefixes), C119_vlan_prefix_shifts (prefixes of new VLANs are allocated before link prefixes and change the prefixes of existing links), C119_global_vlan_shifts (a new global VLAN changes the automatic identifiers of node VLANs). Existing links are links between existing nodes; the result of the larger topology is compared only when its transformation succeeds. C119_global_vrf_shifts (a new global VRF changes the automatic identifiers and route distinguishers of node VRFs), C119_static_vni_shifts (a new VLAN with the VNI of an existing VLAN changes the VNI of the existing VLAN)."
 },
 "C120": {
  "status": "proved",
  "note": "End-to-end composition of C02, C95, C116, C12, C23 and C24. The conditions are needed: C120_two_interfaces (a node with two interfaces on the same link gets two EBGP neighbors with the same address without an error), C120_daemon_local_as (a daemon without a loopback that uses a local AS is an IBGP and an EBGP neighbor with the same address). VLAN interfaces and changes made by plugins are not part of the composition."
 },
 "C121": {
  "status": "proved",
  "note": "Defect: nodes with bgp.sessions in different address families get sessions that cannot be established, and no error is reported (C121_address_family_mismatch)."
 },
 "C122": {
  "status": "proved",
  "note": "Defects: loopback addresses specified in the topology are not compared with router identifiers allocated from the pool (C122_static_loopback); overlapping loopback and router_id pools with different prefix lengths are accepted and result in duplicate router identifiers (C122_overlapping_pools)."
 },
 "C123": {
  "status": "proved",
  "note": "Tool commands other than the removal of the tool directory are assumed not to change files in the lab directory. Defects: a symbolic link to a directory aborts every cleanup (C123_link_to_directory); symbolic links that point nowhere are never removed (C123_dangling_link); a failed removal of a tool directory is ignored and the snapshot is removed, so the cleanup cannot be repeated (C123_tool_failure)."
 },
 "C124": {
  "status": "proved",
  "note": "Defects proved: VRFs used in VLANs but defined nowhere are created silently and their identifiers depend on the set order (C124_undefined_vrfs); the prefix of a link with a VLAN defined on its nodes is taken from an arbitrary node (C124_node_vlan_prefix); configurations never used on the same node are listed in set order (C124_unrelated_configs)."
 },
 "C125": {
  "status": "proved",
  "note": "Limit shown: nodes with different default areas use different areas on a common link without an error (C125_area_mismatch)."
 },
 "C126": {
  "status": "proved",
  "note": "Composition of the two VRF passes. Limits proved: C126_leak_without_globals (node VRFs only: static RD equals an automatic RD, routes leak), C126_node_vrfs_disconnected (same-named node VRFs are different VPNs)."
 },
 "C127": {
  "status": "proved",
  "note": "Limit proved: C127_mixed_flooding (a node using EVPN is in the static lists of the others but has none itself)."
 },
 "C128": {
  "status": "proved",
  "note": "The VLAN data seen by createSvi is related to the result of vlanTransform by the hypothesis TagsFrom (same identifiers). Limit proved: C128_local_vlans (VLANs with the same name defined in two nodes have different tags; the check that should reject this is never reached, see C62_local_names)."
 },
 "C129": {
  "status": "proved",
  "note": "Composition of C02, C29, C09 and C51. Witnesses: a gateway identifier not seen by the gateway module clashes with a node identifier; a node attached twice to a link with ID-based addressing gets the same address twice (both are reported)."
 },
 "C130": {
  "status": "proved",
  "note": "Host commands are modelled by their effect on the host; failures are arbitrary. Negative results with witnesses: a bridge that existed before the lab was started is deleted when the lab is stopped; box names, box versions and names of permanent management networks are compared as parts of text."
 },
 "C131": {
  "status": "proved",
  "note": "The list of unsupported combinations is an inductive predicate in Spec/DeviceChecks; C131_reported is an equivalence. Defects proved: an unknown virtual machine in a containerlab lab needs a containerlab kind (C131_unknown_vm); a mixed trunk with a routed native VLAN is not reported on Cumulus NVUE when the VLAN is defined only on nodes (C131_native_local). Warnings (reports that are not errors), checks of passive RIPng interfaces and OSPF default route attributes are not modelled."
 },
 "C132": {
  "status": "proved",
  "note": "Theorems: exact set of hosts/families/routes, exact condition for the exception (defect: two DHCP client interfaces, `host_af_list.remove` called twice), default routes used iff a gateway exists, composite of C60/C61 with all routes processed in order (gateway caching included). Defect witness: IPv6 routes lost with an IPv4-only gateway."
 },
 "C133": {
  "status": "proved",
  "note": "Defects proved: the runtime of a tool specified in system defaults is replaced with Docker as soon as the tool is listed in the topology (C133_default_runtime), a node that is not running is shown with the status of an unrelated container that has the node name (C133_unrelated_container). Hypotheses: unique keys, runtime data are dictionaries, tool names do not clash with the topology keys used by the commands. Formatting of commands is not modelled."
 },
 "C134": {
  "status": "proved",
  "note": "Defects proved: the program crashes when the management subnet has at most two addresses or does not contain the starting address (C134_mgmt_crash); a network name containing the default bridge name is changed by the bridge substitution, and with mgmt.start 102 in the default subnet the dynamic range is wrong and includes the address of the first node (C134_mgmt_wrong); packets are captured on the wrong interface when a VM has two interfaces in the same network (C134_capture_wrong)."
 },
 "C135": {
  "status": "proved",
  "note": "Rendering of templates and reading of files are not modelled. The main theorem assumes different names of requested and mapped files and user mappings outside of the directory of the node. Defect C135_other_node: the test for generated files is a substring test, so a mapping of a file of node r10 on node r1 is reported as a missing template."
 },
 "C136": {
  "status": "proved",
  "note": "Defects proved: a LAG with an empty list of members is not reported and stops the processing of all following LAG links (C136_empty_members); a peer link with an empty list of members becomes a link without nodes (C136_empty_peer). Identical MLAG groups specified by the user on two peer links are not reported."
 },
 "C137": {
  "status": "proved",
  "note": "The model returns none where the code raises an exception: cleanup_intf_protocol_parameters (line 87) uses node.gateway although a node may have no gateway attribute. An unsupported protocol is reported once per protocol, and the interfaces are left as they are."
 },
 "C138": {
  "status": "proved",
  "note": "Hypothesis VnisValid: no VLAN has `vni: true` (the attribute is an integer). With `vni: true` in a global VLAN the copy in a node keeps `true` while the global VLAN gets a number. C138_static_clash: two VLANs with the same static VNI are connected to each other and nothing is reported. Two nodes with the same VTEP address are not connected (excluded by a hypothesis)."
 },
 "C139": {
  "status": "proved",
  "note": "C139_topology_rejected (defect): netlab restart accepts a topology file, a snapshot file and logging flags, but passes them to netlab down, which exits with an error message. The argparse library is modelled for exact option names only."
 },
 "C140": {
  "status": "proved",
  "note": "C140_nested (defect): with a working directory `a/b` the command removes the directory a/a/b instead of a/b, and the working directory stays. A test aborted because the topology file cannot be copied leaves the working directory (fatal error)."
 },
 "C141": {
  "status": "proved",
  "note": "C141_instance_tarball (defect): with --instance the configurations are collected in the lab directory and the tarball is created from the directory of the same name in the directory in which the command was started: the command fails, or it archives (and removes) unrelated files."
 },
 "C142": {
  "status": "proved",
  "note": "Device features are a parameter. Values are compared as data structures (Python compares True and 1 as equal)."
 },
 "C143": {
  "status": "proved",
  "note": "Hypotheses come from the topology transformation: unique node names and link indexes, at least one interface per link, two interfaces on links drawn as a line. Links of other types (tunnel, loopback, LAG parent) are not drawn. C143_short_names: shortened interface names are not unique in general."
 },
 "C144": {
  "status": "proved",
  "note": "Values of VRFs are dictionaries with unique keys. A global VRF with no attributes counts as undefined, as in the code."
 },
 "C145": {
  "status": "proved",
  "note": "Refined to what the code does. Defects proved: 'netlab show modules --format yaml' without a module displays an empty dictionary for every module (C145_modules_yaml: settings[m].dev_list is used instead of the list of devices); 'netlab show module-support --format yaml' without a device merges all devices into one dictionary (C145_support_yaml_all, C145_support_yaml_lost: the default value of the argument is '*', so the test for a selected device is always true); names of features with three levels lose the first key (C145_columns). Table layout is not modelled."
 },
 "C146": {
  "status": "proved",
  "note": "Defect proved (C146_repeated): the key used to report a missing plugin action only once is never stored (and has no f prefix), so the error is repeated for every attempt. The error for a missing plugin has no device name (missing f prefix) - a text, not modelled."
 },
 "C147": {
  "status": "proved",
  "note": "C147_settings is an equivalence (defect: `graph=file` ignores user settings). C147_truncated, C147_unknown and C147_tools_empty are defects. The Python expression evaluator, the output modules and templates are parameters."
 },
 "C148": {
  "status": "proved",
  "note": "Keys have no dots and a request is the name of a device. Two values are never the same Python object in the model: a later change in a copied dictionary is not seen in the copy (the theorems require that the copied data have no requests). C148_order is the defect with the order of devices; C148_merge shows that own settings (including the merge request) are in the result."
 },
 "C149": {
  "status": "proved",
  "note": "Two defects are proved: the part of an inspected expression after a colon (slices, conditions on strings) is ignored (C149_colon), and the part after an equal sign (comparisons) is used as the name of a file that is overwritten (C149_equal). Displaying the value (colours, tables) is not modelled; Python eval is a parameter."
 },
 "C150": {
  "status": "proved",
  "note": "The normalization of policy entries is a parameter here (it is proved in the property about routing policies). Python str is a parameter."
 },
 "C151": {
  "status": "proved",
  "note": "Defects proved: virtual machines of two labs can have the same name when lab names contain underscores (C151_vm_clash) or dots (C151_vm_dot); the version of a Vagrant box is ignored when there is no dot in the box and its version (C151_box_version)."
 },
 "C152": {
  "status": "proved",
  "note": "Defect proved: a script that installs system packages is executed without sudo when a script before it installs Python libraries in a virtual environment (C152_sudo_lost). The content of scripts and the text of messages are not modelled."
 },
 "C153": {
  "status": "proved",
  "note": "Defect proved: C153_no_containers (with no running container \"docker kill\" is executed without arguments instead of being skipped). A missing lab directory crashes --cleanup (modelled as an error without effects). The result of the \"netlab down\" command is C13 and other properties."
 },
 "C154": {
  "status": "proved",
  "note": "Defects proved: C154_answer_ignored (the box is built even when the user answers no), C154_left_behind (when an external command fails the program exits without removing the VM, the network and the build directory), C154_skip_preinstall (--skip preinstall also skips the installation), C154_wrong_disk (disk names with spaces; stale VMDK files used instead of the extracted one). Removal commands are assumed to work."
 },
 "C155": {
  "status": "proved",
  "note": "Trunk VLANs are not part of the modelled interface creation. Defects proved: C155_missed."
 },
 "C156": {
  "status": "proved",
  "note": "False alarm: a LAG between a switch and a host in a lab with a single provider results in a warning although it uses no Linux bridge (C156_false_alarm)."
 },
 "C157": {
  "status": "proved",
  "note": ""
 },
 "C158": {
  "status": "proved",
  "note": "Proved through creation of VLAN interfaces, VLAN-wide neighbor lists and the final cleanup. VLAN trunks (subinterfaces, the \"SubIf VLAN\" text is modelled but not reached) and routed VLANs are outside these theorems."
 },
 "C159": {
  "status": "proved",
  "note": "The VRF of a pool is a parameter of the model. The list of pools is shared by all servers in the code; later changes of the shared list are not modelled."
 },
 "C160": {
  "status": "proved",
  "note": "Keys are texts; anchors, merge keys and the YAML parser itself are not modelled."
 },
 "C161": {
  "status": "proved",
  "note": "A node called \"all\" replaces the entry with address pools (C161_node_all). Names of nodes have no dots; whether removing internal attributes also changes the topology depends on the Box library and is not modelled."
 },
 "C162": {
  "status": "proved",
  "note": "Defect proved as C162_auto_clash: an automatic transit VNI is not compared with VLAN VNIs, so it can be equal to the static VNI of a VLAN without an error. EVPN with VXLAN transport."
 }
}