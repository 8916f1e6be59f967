# Formal model of netlab (ipspace/netlab) in Lean 4

## What is being verified

netlab turns a lab topology (a YAML file) into a fully expanded data model
(node IDs, addresses, interfaces, VLANs, VRFs, BGP sessions, routing policies...)
and manages the life cycle of the lab.  The properties are listed in
`properties.jsonl`; this file says how each one is modelled and proved, what the
trusted base is, and which parts of the code are outside of the model.

## Layout

* `lean/Verif/Model/*.lean` – executable model of the Python code, function by
  function; every definition cites the file and lines it models.
* `lean/Verif/Spec/*.lean` – small specifications, stated without any of the
  model's helpers (prefix containment and overlap, reachability, ...).
* `lean/Verif/Lemmas/*.lean` – helper lemmas.
* `lean/Verif/Props/*.lean` – the property theorems (`C01_...`), each followed by
  `example`s that instantiate the hypotheses on a concrete non-trivial case.
* `MANIFEST.json` – property → theorem names, status and notes.
* `AXIOMS.txt` – output of `#print axioms` for every theorem in the manifest
  (`tools/axioms.py`).
* `seeded/LOG.jsonl` – mutation experiments on the model (`tools/mutate.py`).
* `tools/citations.py` – checks that cited files, lines and symbols exist;
  `tools/coverage.py` – generates the coverage table below.

## Modelling conventions

* The model is shallow: Python functions become total Lean functions on
  `List`/`Nat`/`Int`/`String`/`Option`/structures.  Data that a function does not
  look at is omitted; a comment at the definition says so.
* `log.error(...)` records an error and carries on; it is modelled by a returned
  error list/flag (or error count).  `log.fatal(...)`, `sys.exit` and Python
  exceptions are modelled as `Except`/`Option` results that stop the computation.
  "The transformation succeeds" means: no fatal result and no recorded error –
  this is what `log.exit_on_error()` checks after every phase
  (`netsim/augment/main.py`).
* Python dictionaries keep insertion order; they are association lists.  Sets
  whose order is irrelevant are lists tested for membership.  Where the code picks
  an arbitrary element of a set, the choice is a parameter (`pick`), so theorems
  hold for every choice.
* `while` loops whose termination is part of the property are modelled with a
  measure or with fuel plus a theorem that the fuel is never the reason for the
  answer.
* IP addresses are natural numbers below `2^w` (`w` = 32 or 128), prefixes are
  pairs (network address, prefix length).  Text rendering and parsing of
  addresses (`ipaddress`, `netaddr`) is not modelled; where text matters, the
  rendering function is a parameter, assumed injective in the theorem statement
  if that is needed.
* Concurrency and crashes (C36, C37) are transition systems: a state contains the
  file system and the program counters of all processes, a history is an
  arbitrary sequence of steps and crashes of any process.
* External behaviour (device responses, clock, file system, `fnmatch`, Python
  f-string evaluation, Jinja2 expressions) is a parameter or an arbitrary stream;
  theorems quantify over it.
* When the code does not have the property one would expect, the statement in
  `properties.jsonl` is restricted to what is true, with the exception
  proved as a separate theorem with a concrete witness.  The witnesses are
  listed in the table and in the manifest.

## Trusted base

* Lean 4.33.0 kernel; the axioms used by the theorems are at most `propext`,
  `Classical.choice` and `Quot.sound` (see `AXIOMS.txt`).  No axioms are added, no
  theorem uses `sorry`, `native_decide` or `bv_decide`.  `decide` (also
  `decide +kernel`, which is evaluated by the kernel) is used only for concrete
  examples and counterexamples.
* The hand translation of Python code into the model (checked by reading, with
  line citations) including our reading of Python, `Box` and `ipaddress`
  semantics.  In particular:
  * `python-box`: `get_box` of an empty YAML document is an empty box; assigning
    a Box copies it; dotted keys address nested dictionaries; `a + b` is a deep
    merge in which `b` wins; reading a missing key of a default box yields an
    empty box;
  * Python `int()` and `str.strip()` are modelled for ASCII text only;
  * Python's recursion limit is not modelled (recursion that does not end is
    reported as such, e.g. C39);
  * the order of iteration over sets is never assumed;
  * text comparison of addresses and identifiers is comparison of strings.
* Files are written with the POSIX semantics described in `Model/LabStatus.lean`:
  opening for writing truncates, writes are separate steps, advisory locks are
  released when the process ends.

## Not modelled

YAML parsing, Jinja2 templates and generated device configurations, provider
back-ends (libvirt, containerlab, VirtualBox), Ansible, reports, graphs and other
outputs, the operating system except where a file-system or process step is a part
of a property, text of messages, debugging output.  Within modelled functions, the
comment at each definition lists what was left out.  The table lists modelled
functions (at least in part) per module of the model.

<!-- coverage -->
| module | modelled functions |
|--------|--------------------|
| `Access` | `cli/capture.py`: run; `cli/connect.py`: connect_to_node, connect_to_tool, create_command_list, create_show_command, docker_connect, quote_list, ssh_connect; `cli/external_commands.py`: run_command, run_probes, set_ansible_flags, test_probe; `cli/show_commands/providers.py`: get_provider_status; `cli/up.py`: run_up; `outputs/common.py`: add_group_vars, adjust_inventory_host, create_adjusted_topology, provider_inventory_settings |
| `AddrTypes` | `data/types.py`: asdot_parsing, check_int_value, check_named_prefix, common_addr_parse, must_be_addr_pool, must_be_asn, must_be_asn2, must_be_bool, must_be_bool_false, must_be_device, must_be_ipv4, must_be_ipv6, must_be_mac, must_be_named_pfx, must_be_net, must_be_node_id, must_be_prefix_str, must_be_r_proto, must_be_rd, prefix_to_ipv4, transform_asdot, transform_named_prefix, transform_to_bool, transform_to_ipaddr, transform_to_ipv4, transform_to_ipv6; `modules/vrf.py`: parse_rdrt_value |
| `Asn` | `data/types.py`: asdot_parsing, must_be_asn, must_be_asn2, must_be_int, post_validation, transform_asdot |
| `AttrConfig` | `augment/config.py`: adjust_attributes, adjust_path_list, adjust_paths, copy_datatypes, copy_merge_attributes |
| `Bfd` | `modules/bfd.py`: bfd_link_state, multiprotocol_bfd_link_state; `modules/isis.yml`: (data); `modules/ospf.yml`: (data) |
| `Bgp` | `augment/links.py`: create_node_interfaces; `modules/bgp.py`: bgp_neighbor, build_bgp_sessions, build_ebgp_sessions, build_ibgp_sessions, find_bgp_rr, get_neighbor_rr, get_remote_ibgp_endpoint |
| `BgpAf` | `data/__init__.py`: kw_list_transform, kw_lookup; `modules/_routing.py`: is_true_stub; `modules/bgp.py`: activate_bgp_default_af, bgp_set_advertise, bgp_set_originate_af, bgp_transform_community_list, build_bgp_sessions, check_bgp_parameters, node_post_transform |
| `BgpAs` | `data/__init__.py`: append_to_list; `modules/bgp.py`: check_bgp_parameters, ebgp_role_link, module_pre_link_transform, node_pre_transform, process_as_list, vlan_ebgp_role_collect, vlan_ebgp_role_set; `modules/bgp.yml`: (data) |
| `BgpDomain` | `extra/bgp.domain/plugin.py`: post_transform |
| `BgpLab` | `augment/links.py`: add_node_interface, create_node_interfaces, set_interface_address; `augment/nodes.py`: loopback_interface, transform; `modules/bgp.py`: bgp_neighbor, build_bgp_sessions, get_remote_ibgp_endpoint |
| `BgpMirror` | `augment/links.py`: add_node_interface, create_node_interfaces; `modules/bgp.py`: build_bgp_sessions |
| `BgpPolicy` | `extra/bgp.policy/defaults.yml`: (data); `extra/bgp.policy/plugin.py`: append_policy_attribute, apply_bgp_routing_policy, apply_policy_attributes, bgp_policy_name, create_routing_policy, fix_bgp_bandwidth, post_transform; `utils/routing.py`: cleanup_neighbor_attributes, intf_neighbors |
| `BgpSession` | `extra/bgp.session/defaults.yml`: (data); `extra/bgp.session/plugin.py`: apply_neighbor_attributes, cleanup_bgp_neighbors, cleanup_rs_mesh, copy_local_attributes, get_attribute_list, post_transform, process_bfd_requests, process_rs_requests, process_tcpao_password, process_tcpao_secrets, set_rs_client, zap_bgp_neighbor; `modules/bgp.py`: bgp_neighbor, build_ebgp_sessions; `utils/routing.py`: check_device_attribute_support, cleanup_neighbor_attributes, intf_neighbors, neighbors |
| `Box` | `augment/groups.py`: copy_group_node_data; `augment/plugin.py`: merge_plugin_defaults; `modules/__init__.py`: merge_node_module_params |
| `BoxBuild` | `cli/external_commands.py`: run_command; `cli/libvirt_actions/package.py`: abort_on_failure, box_build_confirm, build, cleanup, create_workdir, get_template_data, lp_create_bootstrap_iso, lp_create_box, lp_create_vm, lp_create_vm_disk, lp_install_box, lp_preinstall_hook, run, start_vagrant_network, stop_vagrant_network, valid_version, vm_cleanup |
| `Cleanup` | `cli/__init__.py`: check_modified_source, fs_cleanup, load_snapshot; `cli/down.py`: down_cleanup, run, tool_cleanup; `cli/external_commands.py`: execute_tool_commands |
| `Clone` | `extra/node.clone/plugin.py`: clone_lag, clone_link, clone_node, process_links, topology_expand |
| `Components` | `augment/components.py`: create_included_group, expand_components, expand_include, include_links, include_nodes, validate_components; `augment/links.py`: get_next_linkindex |
| `Confirm` | `cli/clab_actions/cleanup.py`: clab_cleanup, cleanup_confirm; `cli/status.py`: check_conflicting_options, cleanup_lab, display_active_labs, get_lab_status, load_provider_status, print_lab_log, reset_lab_status, run, show_lab, show_lab_instance, show_lab_log, show_lab_nodes, status_parse; `utils/strings.py`: confirm |
| `DevCopy` | `augment/config.py`: copy_merge_device_features, process_copy_requests |
| `DeviceChecks` | `augment/devices.py`: get_provider; `data/__init__.py`: append_to_list; `devices/__init__.py`: exec_device_quirk, process_quirks, report_quirk; `devices/_common.py`: check_indirect_static_routes; `devices/arubacx.py`: device_quirks; `devices/asav.py`: check_isis_p2p_interfaces, device_quirks; `devices/bird.py`: device_quirks; `devices/cumulus.py`: check_ospf_vrf_default, device_quirks; `devices/cumulus_nvue.py`: device_quirks, mark_shared_mlag_vtep, nvue_check_native_routed_on_mixed_trunk, nvue_check_ospf_passive_in_vrf, nvue_check_ospfv3, nvue_check_stp_features, nvue_merge_ospf_loopbacks; `devices/dellos10.py`: check_anycast_gateways, check_expanded_communities, check_ospf_originate_default, check_pvrst_on_virtual_networks, check_vlan_ospf, check_vrrp_on_virtual_networks, device_quirks; `devices/eos.py`: check_dhcp_clients, check_mlps_vlan_bundle, check_shared_mac, configure_ceos_attributes, device_quirks, passive_stub_interfaces; `devices/frr.py`: check_stp_on_trunks, device_quirks; `devices/iosv.py`: check_ripng_passive, check_vrrp_bvi, device_quirks, vlan_1_subinterface; `devices/iosvl2.py`: device_quirks; `devices/junos.py`: check_evpn_ebgp; `devices/linux.py`: device_quirks; `devices/nxos.py`: device_quirks; `devices/srlinux.py`: check_prefix_deny, device_quirks; `devices/unknown.py`: check_clab_device_kind; `modules/_routing.py`: routing_protocol_interfaces |
| `DeviceData` | `augment/devices.py`: augment_device_settings, build_module_support_lists, get_device_attribute, get_device_features, merge_daemons |
| `DeviceInv` | `outputs/devices.py`: create, write_devices |
| `Dhcp` | `data/__init__.py`: append_to_list; `modules/dhcp.py`: build_topology_dhcp_pools, get_gateway_data |
| `DhcpRelay` | `modules/_routing.py`: get_remote_cp_endpoint; `modules/dhcp.py`: check_dynamic_routing, check_protocol_support, link_pre_transform, module_post_transform, set_dhcp_relay; `utils/routing.py`: get_intf_address |
| `DhcpServer` | `modules/dhcp.py`: module_post_transform, set_dhcp_server_pools |
| `Evpn` | `modules/_dataplane.py`: validate_object_reference_list; `modules/evpn.py`: check_asym_vlan, check_node_vrf_bundle, check_node_vrf_irb, copy_global_evpn_lists, create_vlan_service, enable_evpn_af, get_usable_evpn_asn, get_vlan_bundle_flag, module_post_node_transform, node_post_transform, set_local_evpn_rd, trim_node_evpn_lists, vlan_aware_bundle_service, vlan_based_service, vrf_irb_setup |
| `ExtraFiles` | `cli/clab_actions/tarball.py`: clab_config_adjust, find_config_file; `providers/__init__.py`: create_extra_files, find_extra_template; `providers/clab.py`: node_post_transform, post_configuration_create |
| `ExtraPlugins` | `extra/bgp.originate/plugin.py`: post_node_transform; `extra/bonding/plugin.py`: add_bond_interfaces, post_link_transform, update_neighbors; `extra/check.config/plugin.py`: cleanup; `extra/mlag.vtep/plugin.py`: pre_link_transform; `extra/multilab/__init__.py`: eval_changed_parameters, init, merge_changes; `extra/proxy-arp/plugin.py`: post_transform; `extra/vrrp.version/plugin.py`: post_transform |
| `Fabric` | `extra/fabric/plugin.py`: add_group, adjust_group_parameters, create_node, extract_params, format_node_params, generate_fabric, topology_expand |
| `FileMap` | `data/filemaps.py`: box_to_dict, check_mapping_dict, check_mapping_list, dict_to_mapping, mapping_to_dict, normalize_file_mapping; `providers/__init__.py`: create_extra_files_mappings; `providers/clab.py`: normalize_clab_filemaps |
| `Files` | `utils/files.py`: absolute_search_path, expand_package, find_file, get_search_path |
| `FilterNorm` | `modules/routing.py`: normalize_aspath_entry, normalize_policy_entry, normalize_routing_data, normalize_routing_entry, normalize_routing_object, normalize_routing_objects |
| `Gateway` | `augment/main.py`: transform_data, transform_setup; `data/__init__.py`: get_global_settings; `modules/gateway.py`: check_gw_protocol, cleanup_intf_protocol_parameters, link_pre_link_transform, module_init, node_post_transform, process_gw_id; `modules/gateway.yml`: (data) |
| `GatewayNode` | `modules/gateway.py`: check_protocol_support, cleanup_intf_protocol_parameters, cleanup_unicast_ip, node_post_transform |
| `Ghost` | `augment/links.py`: set_link_bridge_name; `augment/nodes.py`: ghost_buster |
| `Graph` | `outputs/d2.py`: add_groups, as_start, bgp_session, build_maps, edge_label, edge_node_net, edge_p2p, graph_bgp, graph_clusters, graph_topology, network_with_label, node_with_label; `outputs/graph.py`: add_groups, as_start, bgp_session, build_maps, edge_label, edge_node_net, edge_p2p, graph_bgp, graph_clusters, graph_start, graph_topology, network_with_label, node_with_label |
| `Graphite` | `tools/graphite.py`: links_items, nodes_items, short_ifname, write |
| `GroupInit` | `augment/groups.py`: add_node_level_groups, auto_create_members, check_group_data_sanity, check_group_data_structure, create_bgp_autogroups, init_groups, precheck_groups; `data/__init__.py`: append_to_list |
| `Groups` | `augment/groups.py`: check_group_data_structure, check_recursive_chain, check_recursive_groups, copy_group_device_module, copy_group_node_data, group_members, node_config_templates, reverse_topsort |
| `HostRoutes` | `augment/nodes.py`: add_host_static_routes; `data/__init__.py`: append_to_list |
| `IdSet` | `modules/_dataplane.py`: build_id_set, create_id_set, extend_id_set, get_id_set, get_next_id, is_id_used, set_id_counter; `utils/log.py`: fatal |
| `IfNames` | `augment/links.py`: create_regular_interface, create_virtual_interface; `augment/nodes.py`: augment_mgmt_if; `daemons/bird.yml`: (data); `daemons/dnsmasq.yml`: (data); `devices/arubacx.yml`: (data); `devices/asav.yml`: (data); `devices/cat8000v.yml`: (data); `devices/csr.yml`: (data); `devices/cumulus.yml`: (data); `devices/cumulus_nvue.yml`: (data); `devices/dellos10.yml`: (data); `devices/eos.yml`: (data); `devices/fortios.yml`: (data); `devices/frr.yml`: (data); `devices/iol.yml`: (data); `devices/ioll2.yml`: (data); `devices/ios.yml`: (data); `devices/iosv.yml`: (data); `devices/iosvl2.yml`: (data); `devices/iosxr.yml`: (data); `devices/junos.yml`: (data); `devices/linux.yml`: (data); `devices/none.yml`: (data); `devices/nxos.yml`: (data); `devices/routeros.yml`: (data); `devices/routeros7.yml`: (data); `devices/sonic.yml`: (data); `devices/srlinux.yml`: (data); `devices/sros.yml`: (data); `devices/unknown.yml`: (data); `devices/vjunos-router.yml`: (data); `devices/vjunos-switch.yml`: (data); `devices/vmx.yml`: (data); `devices/vptx.yml`: (data); `devices/vsrx.yml`: (data); `devices/vyos.yml`: (data); `modules/vlan.py`: create_svi_interfaces, rename_vlan_subinterfaces; `templates/provider/clab/clab.j2`: (data); `utils/strings.py`: eval_format |
| `Igp` | `modules/_routing.py`: add_loopback_igp, build_vrf_interface_list, external, igp_post_transform, is_true_stub, network_type, passive, remove_unaddressed_intf, remove_unused_igp, remove_vrf_interfaces, routing_af; `modules/ospf.py`: node_post_transform |
| `IgpAdj` | `augment/links.py`: create_node_interfaces; `modules/__init__.py`: copy_node_data_into_interfaces; `modules/_routing.py`: external, is_true_stub, network_type, passive, remove_unaddressed_intf; `modules/isis.py`: node_post_transform; `modules/ospf.py`: node_post_transform |
| `IgpProto` | `modules/_routing.py`: check_intf_support, check_vrf_protocol_support, get_remote_cp_endpoint, get_router_id_blacklist, remove_vrf_routing_blocks, routing_protocol_data; `modules/isis.py`: isis_unnumbered, node_post_transform; `modules/ospf.py`: node_post_transform, ospf_unnumbered, propagate_node_attributes; `modules/ripv2.py`: adjust_rip_timers, node_post_transform; `modules/srv6.py`: node_post_transform; `utils/routing.py`: igp_interfaces |
| `Inspect` | `cli/inspect.py`: inspect_value; `cli/show_commands/attributes.py`: get_attribute_subset; `outputs/yaml.py`: write |
| `Install` | `cli/install.py`: check_crazy_pip3, check_script, install_parse, run, set_sudo_flag |
| `Inventory` | `data/__init__.py`: append_to_list; `outputs/ansible.py`: ansible_inventory, ansible_inventory_host, copy_device_provider_group_vars, copy_provider_inventory, create, get_host_addresses, provider_inventory_settings; `utils/routing.py`: get_intf_address |
| `Ipam` | `augment/addressing.py`: get_nth_ip_from_prefix; `augment/links.py`: IPAM_id_based, IPAM_loopback, IPAM_p2p, IPAM_sequential, IPAM_unnumbered, assign_interface_addresses, check_duplicate_address, check_interface_host_bits, get_prefix_IPAM_policy, set_fhrp_gateway, set_interface_address |
| `LabAddr` | `augment/links.py`: assign_interface_addresses, assign_link_prefix, get_gateway_id, set_fhrp_gateway, set_interface_address, transform |
| `LabCommands` | `cli/__init__.py`: common_parse_args, fs_cleanup, parser_add_verbose; `cli/collect.py`: get_tarball_file, run; `cli/down.py`: down_parse; `cli/restart.py`: restart_parse_args, run; `cli/test.py`: cleanup_force, cleanup_working_directory, copy_topology, run |
| `LabHost` | `cli/external_commands.py`: run_command; `data/__init__.py`: append_to_list; `providers/__init__.py`: validate_images; `providers/clab.py`: create_linux_bridge, create_ovs_bridge, destroy_linux_bridge, destroy_ovs_bridge, list_bridges, load_kmods, post_stop_lab, pre_start_lab, validate_node_image; `providers/libvirt.py`: create_vagrant_network, validate_node_image; `utils/linuxbridge.py`: configure_bridge_forwarding |
| `LabStatus` | `cli/__init__.py`: change_lab_instance, is_dry_run, lab_status_change, lab_status_log, lab_status_update, set_dry_run; `cli/create.py`: run; `cli/down.py`: lab_dir_mismatch, run, stop_all; `cli/initial.py`: run_initial; `cli/status.py`: cleanup_lab, reset_lab_status; `cli/up.py`: check_lab_instance, lab_status_start, recreate_secondary_config, run_up, start_provider_lab, status_start_lab, status_start_provider; `outputs/ansible.py`: write; `outputs/devices.py`: write; `outputs/provider.py`: write; `outputs/tools.py`: write; `outputs/yaml.py`: write; `providers/external.py`: pre_start_lab; `utils/status.py`: change_status, get_lab_id, get_status_filename, is_directory_locked, lock_directory, read_status, remove_lab_status, unlock_directory |
| `Lag` | `modules/lag.py`: check_lag_config, check_mlag_support, create_lag_interfaces, create_lag_member_links, create_peer_links, module_pre_transform, node_post_transform, normalized_members, populate_lag_id_set, populate_mlag_peer, set_lag_ifindex |
| `LagBridge` | `augment/links.py`: count_link_nodes, set_link_loopback_type; `augment/main.py`: post_transform, transform_data; `modules/lag.py`: check_bridge_links, module_post_transform; `providers/__init__.py`: pre_transform; `providers/libvirt.py`: pre_transform |
| `LagLinks` | `modules/lag.py`: check_same_pair, create_lag_member_links, create_peer_links, module_pre_transform, normalized_members, populate_peerlink_id_set, process_lag_link |
| `LibvirtNet` | `cli/capture.py`: run; `providers/__init__.py`: pre_transform; `providers/libvirt.py`: capture_command, create_network_template, get_libvirt_mgmt_template, get_linux_bridge_name, post_start_lab, pre_transform, replace_xml_mgmt_subnet; `templates/provider/libvirt/vagrant-libvirt.xml`: (data); `utils/linuxbridge.py`: configure_bridge_forwarding |
| `LinkIntf` | `augment/links.py`: add_node_interface, cleanup_link_interface_AF_entries, copy_link_gateway, create_ifname, create_node_interfaces, get_interface_description, interface_data, interface_feature_check, set_interface_name, set_node_af, set_parent_interface |
| `LinkNorm` | `augment/links.py`: adjust_interface_list, adjust_link_list, adjust_link_object; `data/types.py`: must_be_list, transform_to_list |
| `LinkType` | `augment/links.py`: check_link_type, expand_groups, get_default_link_type, set_link_loopback_type, set_link_type_role, set_linknames, transform; `data/types.py`: must_be_id, must_be_list, transform_to_list |
| `Links` | `augment/links.py`: add_node_interface, create_node_interfaces, create_regular_interface, create_virtual_interface, get_link_by_index, get_next_linkindex, get_unique_ifindex, set_link_bridge_name, set_linkindex, transform; `modules/lag.py`: create_lag_member_links, module_post_transform; `modules/vlan.py`: create_vlan_link_data, module_post_link_transform; `modules/vrf.py`: create_vrf_links |
| `Log` | `augment/main.py`: post_transform, topology_init, transform_data, transform_setup; `utils/log.py`: error, exit_on_error, fatal, get_calling_module, get_error_count, info, init_log_system, pending_errors, print_more_hints, repeat_warnings, warning |
| `LogFlags` | `utils/log.py`: debug_active, set_flag, set_logging_flags |
| `Loopback` | `augment/links.py`: check_interface_host_bits; `augment/nodes.py`: loopback_interface, transform |
| `Mgmt` | `augment/addressing.py`: validate_pools; `augment/nodes.py`: augment_mgmt_if, check_duplicate_mgmt_addr, transform |
| `ModHooks` | `modules/__init__.py`: copy_node_data_into_interfaces, link_transform, module_transform, node_transform, pre_default, remove_module, reorder_node_modules; `utils/callback.py`: call |
| `Modules` | `modules/__init__.py`: adjust_global_modules, adjust_modules, augment_node_module, check_module_dependencies, check_supported_node_devices, post_transform, pre_transform |
| `Mpls` | `augment/main.py`: transform_setup; `data/__init__.py`: bool_to_defaults; `data/types.py`: check_valid_values, get_value_to_check; `modules/_routing.py`: is_true_stub, passive, remove_unused_igp; `modules/mpls.py`: check_node_features, node_adjust_6pe, node_adjust_bgplu, node_adjust_ldp, node_adjust_mplsvpn, node_post_transform, node_pre_transform, prune_mplsvpn_af, validate_mpls_bgp_parameter; `modules/mpls.yml`: (data) |
| `Multihop` | `extra/ebgp.multihop/plugin.py`: augment_af_activation, check_af_activation_support, check_multihop_support, cleanup_interfaces, fix_vrf_loopbacks, post_transform, pre_link_transform, remove_fake_interfaces; `modules/vrf.py`: get_vrf_loopback; `utils/routing.py`: neighbors |
| `Net` | `augment/addressing.py`: create_pool_generators, get_nth_ip_from_prefix, validate_pools; `augment/links.py`: assign_link_prefix, get_prefix_IPAM_policy |
| `NodeClean` | `augment/nodes.py`: check_unique_ifnames, cleanup, cleanup_daemon_config, cleanup_mtu |
| `NodeDevice` | `augment/devices.py`: get_consolidated_device_data, get_provider, get_provider_data; `augment/nodes.py`: augment_node_device_data, augment_node_provider_data, augment_node_system_data, find_node_device, find_node_image, validate_node_provider; `augment/topology.py`: adjust_global_parameters; `data/validate.py`: init_validation |
| `NodeId` | `augment/main.py`: transform_data, transform_setup; `augment/nodes.py`: create_node_dict, reserve_id, transform, validate; `defaults/attributes.yml`: (data) |
| `Nodeset` | `cli/_nodeset.py`: add_glob, get_nodeset, is_glob, parse_nodeset |
| `Outputs` | `cli/create.py`: run; `outputs/__init__.py`: __init__, load; `outputs/tools.py`: create_tool_config, render_tool_config; `outputs/yaml.py`: write; `utils/files.py`: close_output_file, create_file_from_text, open_output_file |
| `Plan` | `augment/links.py`: IPAM_id_based, IPAM_unnumbered, create_node_interfaces, transform; `augment/main.py`: transform_data, transform_setup; `augment/nodes.py`: loopback_interface, reserve_id, transform |
| `Plugins` | `augment/plugin.py`: check_plugin_dependencies, execute, init, load_plugin_from_path, plugin_requires_check, sort_plugins |
| `PolicyDirection` | `extra/bgp.policy/plugin.py`: apply_policy_attributes, check_attribute_direction |
| `PoolSetup` | `augment/addressing.py`: create_pool_generators, evaluate_named_prefix, normalize_ip, normalize_prefix, setup, setup_pools, setup_prefixes, validate_pools; `defaults/attributes.yml`: (data) |
| `Pools` | `augment/addressing.py`: create_pool_generators, get, get_nth_subnet, get_pool, get_pool_prefix |
| `PrefixCheck` | `cli/validate.py`: exec_plugin_function; `validate/_common.py`: check_for_prefix, report_state, run_prefix_checks; `validate/bgp/__init__.py`: (data); `validate/bgp/eos.py`: check_as_elements, check_aspath, check_cluster_id, check_community, check_locpref, check_med, check_vrf_data, filter_best, filter_bgp_nh, filter_bgp_peer, get_bgp_prefix, valid_bgp_prefix; `validate/bgp/frr.py`: check_as_elements, check_aspath, check_cluster_id, check_community, check_locpref, check_med, filter_best, filter_bgp_nh, filter_bgp_peer, get_bgp_prefix, valid_bgp_prefix |
| `Provider` | `augment/devices.py`: get_provider; `providers/__init__.py`: mark_providers, select_primary_provider, select_topology |
| `ProviderNode` | `providers/__init__.py`: get_forwarded_ports, validate_mgmt_ip; `providers/clab.py`: add_forwarded_ports, augment_node_data |
| `Quirks` | `devices/__init__.py`: exec_device_quirk, get_ansible_collection, need_ansible_collection, process_config_sw_check, process_quirks, report_quirk; `devices/arubacx.py`: device_quirks; `devices/cumulus_nvue.py`: nvue_check_ospf_passive_in_vrf; `devices/eos.py`: check_mlps_vlan_bundle, check_mpls_clab; `devices/iosvl2.py`: check_reserved_vlans, vlan_1_tagged; `devices/junos.py`: check_multiple_loopbacks, fix_unit_0, set_junos_mtu, unit_0_trick; `devices/linux.py`: check_routing_module; `devices/nxos.py`: check_reserved_vlans, vlan_1_tagged; `devices/unknown.py`: device_quirks |
| `ReadTopo` | `utils/read.py`: add_cli_args, include_yaml, transform_cli_value; `utils/versioning.py`: check_topology_version, get_version_specifier, get_versioned_topology |
| `RouteImport` | `defaults/attributes.yml`: (data); `modules/_routing.py`: build_vrf_interface_list, check_import_request, default_route_adjust, is_vrf_protocol, node_add_routing_policy, process_default_route, process_imports, remove_vrf_imports; `modules/ospf.yml`: (data); `modules/routing.py`: import_routing_object |
| `RoutePolicy` | `modules/routing.py`: call_dispatch, check_routing_object, check_routing_policy, import_policy_filters, import_routing_object, is_kw_supported, node_pre_transform, normalize_policy_entry, normalize_routing_entry, policy_shortcut, process_routing_data; `modules/routing.yml`: (data) |
| `RouterId` | `augment/addressing.py`: get; `modules/_routing.py`: get_router_id_prefix, get_unique_router_ids, router_id; `modules/bgp.py`: module_post_transform; `modules/ospf.py`: node_post_transform |
| `RoutingObjects` | `modules/routing.py`: adjust_pfx_min_max, create_empty_prefix_list, create_pfx_af_entry, expand_community_list, expand_prefix_entry, expand_prefix_list, fix_clist_entry, import_policy_filters, import_routing_object, normalize_routing_entry, normalize_routing_object, number_aspath_acl |
| `RrCluster` | `modules/bgp.py`: build_bgp_rr_clusters, find_bgp_rr |
| `Settings` | `augment/devices.py`: process_child_device, process_device_inheritance; `augment/plugin.py`: merge_plugin_defaults; `data/__init__.py`: remove_null_values; `data/types.py`: must_be_list, transform_to_list; `modules/__init__.py`: get_propagated_global_module_params, merge_global_module_params, merge_node_module_params; `utils/read.py`: build_defaults_list, include_defaults, include_environment_defaults, load |
| `Show` | `cli/show_commands/__init__.py`: get_modlist, parser_add_device; `cli/show_commands/devices.py`: show; `cli/show_commands/images.py`: show; `cli/show_commands/module_support.py`: show; `cli/show_commands/modules.py`: get_feature_list, show, show_module_features |
| `Sort` | `augment/plugin.py`: find_preceding_configs, sort_extra_config, sort_plugins; `modules/__init__.py`: sort_module_list; `utils/sort.py`: dependency |
| `StaticIncludes` | `modules/routing.py`: include_global_static_routes |
| `StaticRoutes` | `augment/nodes.py`: add_host_static_routes, default_static_route_list; `modules/_routing.py`: get_remote_cp_endpoint; `modules/routing.py`: call_dispatch, check_VRF_static_route, check_static_routes, cleanup_static_routes, create_gateway_last_resort, create_nexthop_data, extract_af_info, extract_nh_from_list, import_static_routes, process_routing_data, resolve_gateway_nexthop, resolve_nexthop_intf, resolve_node_nexthop; `modules/routing.yml`: (data); `utils/routing.py`: get_intf_address |
| `Stp` | `modules/stp.py`: configure_stub_port_type, node_post_transform, supports_stp |
| `Svi` | `augment/links.py`: create_node_interfaces, get_unique_ifindex; `modules/vlan.py`: create_node_vlan, create_svi_interfaces, get_vlan_data, get_vlan_interface_mode, module_post_link_transform, populate_node_vlan, populate_node_vlan_data, set_svi_neighbor_list, update_vlan_neighbor_list; `modules/vlan.yml`: (data) |
| `TestEntry` | `augment/tools.py`: copy_default_tools, merge_tool_defaults, process_tools, validate_tool_attributes; `augment/validate.py`: calculate_device_support, process_validation, validate_test_entry |
| `TestPlugin` | `cli/validate.py`: filter_by_tests, find_plugin, find_plugin_action, find_test_action, load_plugin; `utils/files.py`: load_python_module |
| `ToolRun` | `cli/down.py`: stop_all, stop_external_tools; `cli/external_commands.py`: docker_is_used, execute_tool_commands, get_local_addr, get_tool_command, get_tool_message, get_tool_runtime_param; `cli/status.py`: get_instance, get_lab_status, show_lab_nodes; `cli/up.py`: start_external_tools; `providers/clab.py`: get_lab_status, get_node_name; `providers/libvirt.py`: get_lab_status |
| `TopoUtil` | `augment/addressing.py`: parse_prefix, rebuild_prefix; `augment/groups.py`: cleanup, export_group_node_data; `augment/links.py`: count_link_nodes; `augment/topology.py`: adjust_global_parameters, check_global_elements, check_required_elements, cleanup_topology, topology_sanity_check; `utils/strings.py`: make_id |
| `TransitReg` | `augment/main.py`: transform_data; `modules/evpn.py`: module_post_node_transform, module_pre_transform, register_static_transit_vni; `modules/evpn.yml`: (data); `modules/vxlan.py`: module_post_node_transform, module_pre_transform |
| `TransitVni` | `data/types.py`: get_value_to_check; `modules/evpn.py`: get_next_vni, vrf_transit_vni |
| `TypeTest` | `data/types.py`: check_valid_values, execute_test, get_value_to_check, is_true_int, must_be_dict, must_be_list, must_be_str, must_be_string, post_validation, test_wrapper, transform_to_list, type_test |
| `Types` | `data/types.py`: check_int_type, must_be_int, transform_to_int |
| `Vagrant` | `providers/libvirt.py`: create_vagrant_batches, pad_node_interfaces, pre_output_transform |
| `Val` | `augment/nodes.py`: create_node_dict, transform; `data/__init__.py`: is_true_int, remove_null_values; `data/types.py`: check_valid_values, is_true_int, must_be_string; `utils/read.py`: read_yaml |
| `ValRun` | `cli/validate.py`: extend_device_wait_time, extend_first_wait_time, filter_by_nodes, get_entry_value, get_exec_list, get_parsed_result, get_result_string, get_suzieq_result, parse_JSON, wait_before_testing |
| `Validate` | `data/__init__.py`: get_empty_box; `data/types.py`: get_value_to_check, must_be_dict, must_be_list, transform_to_list; `data/validate.py`: check_required_keys, check_valid_with, get_attribute_namespaces, get_valid_attributes, remove_required_flag, transform_validation_shortcuts, validate_alt_type, validate_attributes, validate_dictionary, validate_item, validate_list, validate_module_can_be_false |
| `Validation` | `cli/validate.py`: execute_netlab_config, execute_node_validation, execute_suzieq_validation, execute_validation_expression, execute_validation_plugin, execute_validation_test, find_test_action, increase_fail_count, increase_pass_count, run |
| `Validators` | `cli/connect.py`: docker_connect; `cli/external_commands.py`: run_command; `cli/validate.py`: exec_plugin_function, execute_node_validation, execute_validation_test; `utils/routing.py`: get_prefix; `validate/_common.py`: get_bgp_neighbor_id; `validate/bgp/eos.py`: check_vrf_data, valid_bgp_neighbor; `validate/bgp/frr.py`: valid_bgp_neighbor, valid_bgp_neighbor_details; `validate/eos.py`: valid_ping; `validate/isis/frr.py`: check_neighbor_area, check_neighbor_level, check_neighbor_state, check_prefix_cost, valid_isis_neighbor, valid_isis_prefix; `validate/linux.py`: exec_route, valid_default6, valid_ping, valid_route; `validate/ospf/eos.py`: check_ospf_cost, check_ospf_rt, get_ospf_neighbor_data, get_ospf_prefix, valid_ospf6_neighbor, valid_ospf6_prefix, valid_ospf_neighbor, valid_ospf_prefix; `validate/ospf/frr.py`: check_ospf6_cost, check_ospf6_rt, check_ospf_cost, check_ospf_rt, get_ospf6_prefix, get_ospf_prefix, valid_ipv6_route, valid_ospf6_neighbor, valid_ospf6_prefix, valid_ospf_neighbor, valid_ospf_prefix; `validate/route/frr.py`: check_rt_metric, valid_rt_prefix |
| `Vlan` | `augment/main.py`: transform_data; `modules/_dataplane.py`: build_id_set; `modules/evpn.py`: register_static_transit_vni; `modules/vlan.py`: module_pre_transform, node_pre_transform, populate_vlan_id_set, validate_global_node_match, validate_vlan_attributes; `modules/vlan.yml`: (data); `modules/vxlan.py`: assign_vni, module_post_node_transform, module_pre_transform, register_static_vni |
| `VlanAccess` | `modules/vlan.py`: check_link_interface_attributes, cleanup_vlan_flags, create_loopback_vlan_links, create_vlan_access_links, link_pre_link_transform, module_post_link_transform, rename_neighbor_interface |
| `VlanCleanup` | `augment/links.py`: get_interface_description; `modules/vlan.py`: module_post_link_transform, node_cleanup |
| `VlanDup` | `augment/links.py`: check_duplicate_address; `modules/vlan.py`: check_vlan_duplicate_address, module_post_link_transform |
| `VlanLinks` | `modules/__init__.py`: get_effective_module_attribute; `modules/vlan.py`: check_link_vlan_attributes, compute_interface_vlan_mode, copy_vlan_attributes, create_vlan_links, create_vlan_member_interface, get_link_access_vlan, link_pre_transform, routed_access_vlan, set_access_vlan_interface_mode, set_link_vlan_prefix, validate_link_vlan_attributes, validate_trunk_vlan_list |
| `VlanTrunk` | `modules/vlan.py`: check_mixed_native_trunk, check_mixed_trunks, cleanup_routed_native_vlan, find_parent_interface, map_trunk_vlans, module_post_link_transform, remove_vlan_from_trunk, rename_vlan_subinterfaces |
| `VmNames` | `augment/links.py`: (data); `providers/__init__.py`: node_image_version, pre_output_transform; `providers/clab.py`: get_node_name; `providers/external.py`: pre_transform; `providers/libvirt.py`: get_node_name; `providers/virtualbox.py`: get_node_name |
| `Vrf` | `modules/_dataplane.py`: build_id_set, get_next_id; `modules/vrf.py`: get_next_vrf_id, get_rd_as_number, get_vrf_id, init_vrf_static_ids, module_pre_transform, node_pre_transform, normalize_vrf_dict, normalize_vrf_ids, populate_vrf_static_ids, set_import_export_rt, set_vrf_auto_id, set_vrf_ids, vrf_needs_id |
| `VrfData` | `modules/vrf.py`: node_post_link_transform |
| `VrfNode` | `augment/links.py`: create_virtual_interface; `modules/vrf.py`: fix_vrf_unnumbered, node_post_transform, validate_vrf_route_leaking, vrf_loopbacks |
| `Vtep` | `modules/vxlan.py`: assign_vni, build_vtep_list, module_post_transform, node_set_vtep; `utils/routing.py`: get_intf_address |
| `VxlanSegments` | `augment/main.py`: post_transform, transform_data; `modules/vlan.py`: create_node_vlan, populate_node_vlan, populate_node_vlan_data; `modules/vxlan.py`: build_vtep_list, module_post_node_transform, module_post_transform |
| `YamlKeys` | `utils/read.py`: construct_mapping |

Python files of which nothing is modelled: `cli/ansible.py`, `cli/clab.py`, `cli/clab_actions/build.py`, `cli/config.py`, `cli/exec.py`, `cli/graph.py`, `cli/libvirt.py`, `cli/libvirt_actions/config.py`, `cli/read.py`, `cli/report.py`, `cli/show.py`, `cli/show_commands/defaults.py`, `cli/show_commands/outputs.py`, `cli/show_commands/reports.py`, `cli/usage.py`, `cli/version.py`, `common.py`, `data/global_vars.py`, `devices/cat8000v.py`, `devices/csr.py`, `devices/iol.py`, `devices/ioll2.py`, `devices/vjunos-router.py`, `devices/vjunos-switch.py`, `devices/vmx.py`, `devices/vptx.py`, `devices/vsrx.py`, `extra/ebgp.utils/plugin.py`, `modules/eigrp.py`, `modules/sr.py`, `outputs/format.py`, `outputs/graphite.py`, `outputs/json.py`, `outputs/none.py`, `outputs/report.py`, `utils/templates.py`, `validate/cumulus.py`, `validate/frr.py`.
<!-- /coverage -->

## Properties

"Exceptions" are theorems with a concrete witness showing where the code does not do
what one would expect.

| id | title | modelled | proof method | status | exceptions |
|----|-------|----------|--------------|--------|------------|
| C01 | Auto-assigned identifiers are fresh and bounded | identifier sets of `_dataplane.py` as a state (set, counter) | invariant over arbitrary histories of reservations and allocations; termination by the measure max − next | proved | `C01_start_above_limit_not_detected` |
| C02 | Node identifiers are unique and within range | validation and identifier phase of `nodes.py` | fold invariant on top of C01; negative result for numeric strings | proved | `C02_numeric_string_bypasses_limit` |
| C03 | Sequentially allocated prefixes do not overlap | address pools as generator position plus cache | invariant: handed-out prefixes are an initial segment of the subnet stream; arithmetic of aligned blocks | proved |  |
| C04 | Prefixes requested by index are stable and disjoint from all others | `get_nth_subnet` and the pool cache | invariant of C03; alignment arithmetic | proved |  |
| C05 | Address-pool selection uses the first usable pool | `get_pool`, `get` over a list of pools | induction over the list of pools | proved |  |
| C06 | ID-based interface addressing is collision-free | `IPAM_id_based` | arithmetic on host parts | proved |  |
| C07 | Sequential interface addressing is collision-free and skips the gateway | `IPAM_sequential` | induction over the interface list | proved | `C07_negative_gateway_not_skipped` |
| C08 | Point-to-point addressing gives the two ends different addresses | `IPAM_p2p` | case analysis | proved |  |
| C09 | Choice of addressing policy | `get_prefix_IPAM_policy` followed by the chosen policy | case analysis on prefix size, corner cases as counterexamples | proved | `C09_single_node_on_31_fails`, `C09_gateway_at_the_end_of_30` |
| C10 | Interface indices are unique on a node | `get_unique_ifindex`, `add_node_interface` | induction over the list of links, loop invariant of the search | proved | `C10_static_index_not_checked` |
| C11 | Link indices are unique and link lookups by index are well defined | `get_next_linkindex`, `set_linkindex` and all functions appending links | fold invariant | proved | `C11_lag_member_index_collision` |
| C12 | Neighbor lists are complete and symmetric | `create_node_interfaces`, neighbor lists | induction over links, membership characterization | proved |  |
| C13 | Dependency sorting | `utils/sort.dependency` | loop invariant, counting argument for the watchdog | proved |  |
| C14 | Recursive groups are rejected and membership expansion terminates | `check_recursive_groups`, `group_members` | fuel-bounded recursion against an inductive reachability specification | proved | `C14_deep_hierarchy_aborted` |
| C15 | Group data never overrides node data and inner groups win | `copy_group_node_data`, `copy_group_device_module` | fold precedence lemmas | proved |  |
| C16 | Custom configuration templates: ordering and removal | `node_config_templates` | list equalities | proved | `C16_group_all_is_not_outermost` |
| C17 | Merging of nested settings | `Box` merge on nested association lists | structural induction on values | proved | `C17_not_associative` |
| C18 | Module parameters: most specific scope wins | `merge_node_module_params`, `merge_global_module_params` | fold of merges, C17 | proved |  |
| C19 | Module dependency checks | `check_module_dependencies`, `adjust_modules` | soundness and completeness by list reasoning | proved |  |
| C20 | VLAN identifiers and VNIs are unique and in range | VLAN and VNI allocation | C01 plus fold invariants | proved | `C20_vni_above_limit` |
| C21 | VRF identifiers and route distinguishers are unique | VRF identifiers, RD and RT values | C01 plus fold invariants; counterexamples | proved | `C21_static_rd_not_registered`, `C21_node_rd_overwritten`, `C21_null_rd_stays_null` |
| C22 | EVPN transit VNIs do not clash | transit VNI allocation | fold invariant; counterexample | proved | `C22_first_auto_vni_clashes` |
| C23 | IBGP sessions: full mesh without route reflectors, hub-and-spoke with them | `build_ibgp_sessions` | membership characterization, symmetry | proved | `C23_ibgp_one_sided` |
| C24 | EBGP sessions exist exactly between neighbors in different AS | `build_ebgp_sessions` | membership characterization, symmetry | proved | `C24_disabled_end_one_sided`, `C24_no_common_address_family`, `C24_unnumbered_second_neighbor_error` |
| C25 | Merging global and node routing policies | `import_routing_object`, `import_policy_filters` | fold and sorting lemmas | proved | `C25_not_sorted_when_unchanged`, `C25_global_community_import_crashes` |
| C26 | Expanded prefix filters never match more than requested | `expand_prefix_list`, `adjust_pfx_min_max` | arithmetic on prefix lengths, set-of-prefixes semantics | proved | `C26_limit_dictionary_left` |
| C27 | AS-path and community list numbering | `number_aspath_acl`, community lists | fold invariant | proved |  |
| C28 | Static-route includes terminate and are complete | `include_global_static_routes` | measure for include expansion; reachability | proved | `C28_depth_20_rejected` |
| C29 | First-hop gateway IDs and propagation | `gateway.py` | case analysis, arithmetic | proved | `C29_gateway_on_broadcast_address` |
| C30 | Passive-interface decision | `_routing.passive` and its helpers | case analysis | proved |  |
| C31 | Router-ID precedence | `_routing.router_id` | case analysis | proved |  |
| C32 | AS-dot parsing | `asdot_parsing` | arithmetic on digit strings | proved | `C32_zero_accepted` |
| C33 | Integer validation enforces the declared range | `must_be_int` | case analysis on value kinds; digit arithmetic | proved | `C33_string_out_of_range` |
| C34 | Unknown attributes are rejected | `validate_attributes` and callees | mutual structural induction over definitions and data | proved |  |
| C35 | Node sets on the command line | `_nodeset.py` | membership characterization | proved | `C35_duplicate_node` |
| C36 | A lab instance is owned by at most one directory | status file: five-step updates, interleaved processes, crashes | inductive invariant over all histories; counterexample histories | proved | `C36_down_race`, `C36_dry_run_down_forgets`, `C36_crash_mid_write`, `C36_unlocked_read` |
| C37 | Directory lock protects a running lab | directory lock of `up`, `down`, `create` | inductive invariant over all histories with crashes | proved | `C37_concurrent_up`, `C37_concurrent_down`, `C37_abort_unlocks` |
| C38 | Validation retry loop and exit code | `netlab validate` loop | induction over an arbitrary stream of device responses and clock readings | proved | `C38_suzieq_any`, `C38_exec_failure_lost`, `C38_suzieq_error_passes` |
| C39 | Component expansion | `components.py` | fuel-indexed expansion with a termination theorem; invariant of the expansion loop | proved | `C39_recursive_component`, `C39_dangling_link` |
| C40 | Leaf-and-spine fabric generation | `fabric` plugin | counting, product lists, relational list lemmas | proved | `C40_shared_group`, `C40_same_names` |
| C41 | Node cloning preserves connectivity | `node.clone` plugin | relational list lemmas (`Forall₂`) | proved | `C41_lag_link_lost`, `C41_truncated_names` |
| C42 | MLAG peers get complementary addresses | MLAG peers in `lag.py` | case analysis, arithmetic modulo 65536 | proved | `C42_two_peers`, `C42_mac_wraps` |
| C43 | Device inheritance | `process_device_inheritance` | induction on the chain of parents | proved | `C43_loop_not_reported` |
| C44 | File search order | `find_file`, `get_search_path` | list lemmas; the file system is a parameter | proved | `C44_package_topology_path_lost` |
| C45 | BFD on routing protocol interfaces | `bfd.py` link state | case analysis | proved | `C45_no_module_not_disabled`, `C45_false_families_enable` |
| C46 | DHCP pools exclude statically assigned addresses | `build_topology_dhcp_pools` | fold invariants | proved | `C46_other_access_link` |
| C47 | Management addresses and MAC addresses are unique | management interfaces in `nodes.py` | arithmetic, fold invariant | proved | `C47_broadcast_assigned` |
| C48 | Defaults precedence | `utils/read.py` defaults | merge laws of C17 | proved |  |
| C49 | Primary provider selection | `select_primary_provider` | case analysis | proved |  |
| C50 | VXLAN flooding lists | `vxlan.py` VTEP lists | membership characterization | proved | `C50_disabled_vlan_flooded` |
| C51 | Duplicate addresses on a link are always found | `check_duplicate_address` | induction over interfaces | proved |  |
| C52 | Interface MTU | interface MTU in `create_node_interfaces` | case analysis | proved |  |
| C53 | Bridge names | `set_link_bridge_name` | string length arithmetic | proved | `C53_generated_name_too_long` |
| C54 | Order of custom configurations | `sort_extra_config` | C13 plus list lemmas | proved |  |
| C55 | Route reflectors without a cluster ID share the lowest router ID of their AS | `build_bgp_rr_clusters` | minimum over a filtered list | proved | `C55_lowest_is_textual` |
| C56 | Interfaces running a routing protocol | `_routing.py` IGP interface clean-up | pointwise list characterization | proved |  |
| C57 | Constraints between attributes are enforced | `check_required_keys`, `check_valid_with` | induction, case analysis | proved |  |
| C58 | Link normalization | `adjust_link_list`, `adjust_link_object` | mutual structural induction | proved | `C58_prefix_accepted` |
| C59 | LAG interfaces match member links and have unique numbers | `lag.py` member links and interfaces | fold invariants, relational list lemmas | proved | `C59_unsupported_accepted`, `C59_member_number_collision`, `C59_mlag_mismatch`, `C59_member_captured`, `C59_lag_between_peers` |
| C60 | Static routes are resolved into usable next hops | static route resolution in `routing.py` | case analysis per address family, list membership | proved | `C60_ipv6_route_lost`, `C60_crash`, `C60_not_an_address` |
| C61 | Hosts get static routes for all address pools | `add_host_static_routes` | membership characterization | proved | `C61_duplicate_and_ignored` |
| C62 | VLAN attributes of a link are consistent | `validate_link_vlan_attributes`, `check_link_vlan_attributes` | error-count reasoning: zero errors imply the property | proved | `C62_two_natives`, `C62_local_names`, `C62_native_unchecked` |
| C63 | VLAN forwarding modes, subnets and member links | VLAN modes, prefixes and member links | relational list lemmas; set choice is a parameter | proved |  |
| C64 | VLAN interfaces of a node | `create_svi_interfaces` | loop invariant over interfaces | proved | `C64_bridge_address` |
| C65 | VLAN-wide neighbors | `update_vlan_neighbor_list`, `set_svi_neighbor_list` | invariant over the sequence of updates of all nodes | proved | `C65_attached_twice` |
| C66 | VLAN trunks are turned into exactly the needed subinterfaces | `rename_vlan_subinterfaces` and trunk checks | position-indexed loop invariant, transferred to values by uniqueness of indices | proved |  |
| C67 | MPLS is enabled on exactly the requested interfaces and BGP sessions | `node_adjust_ldp`, `validate_mpls_bgp_parameter`, BGP-LU, VPN and 6PE neighbor adjustments, feature checks, both phases of the module with attribute validation | case analysis of settings, `Forall₂` over neighbors through the three phases | proved | `C67_disabled_af_disables_all`, `C67_ldp_true_crashes`, `C67_ldp_false_ignored`, `C67_ldp_support_not_checked`, `C67_vpn_on_ebgp_session`, `C67_6pe_needs_lu_support`, `C67_6pe_types_not_checked` |
| C68 | BGP sessions have exactly the configured session attributes | bgp.session plugin: copying of attributes, support checks, removal of leftovers (`Model/BgpSession`) | invariant over the loop over nodes relating every current neighbor entry to the original one | proved | `C68_local_as_sessions` |
| C69 | Route servers prune the mesh of EBGP sessions and mark their clients | bgp.session plugin: route server processing and pruning (`Model/BgpSession`) | closed form of the inner loop, invariant indexed by the set of processed nodes | proved | `C69_interface_rs_depends_on_order`, `C69_removed_on_one_side` |
| C70 | The BGP AS list sets AS numbers and route reflectors consistently | AS list, node data and errors | invariant of the loop over the AS list, then per node | proved |  |
| C71 | Links and VLANs between autonomous systems get the EBGP role | links, VLANs and the sets of AS numbers collected for VLANs | invariant of the loop over links: AS numbers seen so far for every VLAN | proved | `C71_no_role`, `C71_node_vlan_has_no_role` |
| C72 | BGP advertises exactly the wanted prefixes and activates exactly the wanted address families | interfaces, neighbors, address family flags, named prefixes | case analysis per interface and neighbor; flags as disjunctions over lists | proved | `C72_localas_ibgp_not_active` |
| C73 | BGP communities are propagated as configured | community settings and keyword tables | induction over keywords and words | proved | `C73_unsupported_keyword_accepted` |
| C74 | EVPN VLANs become independent services or members of the bundle of their VRF | global VLANs, VRFs, EVPN attributes, list of EVPN VLANs | invariant of the loop over the list: what was done for every VLAN and VRF so far | proved | `C74_configured_evi_may_clash` |
| C75 | EVPN on nodes: sessions, lists, route distinguishers and IRB support | EVPN data of a node, global lists, features | per neighbor, VLAN and VRF; substring test characterised | proved | `C75_vlan_and_vrf_share_rd`, `C75_rejected_due_to_other_vrf` |
| C76 | EBGP multihop sessions use loopbacks and leave no other traces | sessions, link indices, node interfaces, VRFs and neighbors | loop over nodes equals a map because loopbacks of VRFs are kept; per neighbor case analysis | proved | `C76_later_links_not_found`, `C76_missing_loopbacks_accepted`, `C76_ipv6_list_wins` |
| C77 | Lists of VLANs and VRFs are complete and refer to existing objects | the reference list, local and global names, default filter result | induction over the global list | proved |  |
| C78 | BGP policies of EBGP neighbors come from the local interface | bgp.policy plugin: post_transform for a node with apply_policy_attributes, append_policy_attribute, create_routing_policy, apply_bgp_routing_policy, fix_bgp_bandwidth (`Model/BgpPolicy.lean`); checks of device features and routing policies are parameters | Fold invariant over attributes, then induction over neighbors and interfaces; names of route maps are injective in the counter, so later neighbors leave earlier route maps alone. | proved | `C78_zero_ignored`, `C78_localas_ibgp_keeps_attributes`, `C78_order_of_interfaces`, `C78_same_name_replaced` |
| C79 | Routing policies on nodes | normalization of policy entries, device checks, import of policies and of filters used by policies, import of filters | specification of every function, invariants over the policies and filters of the node, crash witnesses | proved | `C79_empty_set_crashes`, `C79_missing_policy_crashes`, `C79_global_community_crashes` |
| C80 | Creation of groups and group members | basic checks of groups, creation of objects from group members, members of topology and default groups, groups listed in nodes, BGP AS groups | specification of every step, invariants of the loops, composition; witnesses for the defects | proved | `C80_default_members_lost`, `C80_node_group_clash` |
| C81 | Link types, link roles and group links | set_link_type_role, check_link_type, expand_groups over normalized links | case analysis on types; counting lemma for routers; induction over links and members, C17 for merged attributes | proved | `C81_type_overridden`, `C81_disabled_member_kept`, `C81_nested_group_lost`, `C81_group_nodes_lost`, `C81_member_crash` |
| C82 | VRFs on nodes and VRF loopbacks | VRF node_post_transform and vrf_loopbacks; addresses from the pool are a function of the number of allocations | fold invariants over interfaces and VRFs, stable insertion sort, plan of loopbacks as an inductive specification | proved | `C82_loopback_no_vpn`, `C82_loopback_lost`, `C82_false_loopback` |
| C83 | Route import and default routes | `check_import_request`, `process_imports`, `is_vrf_protocol`, `remove_vrf_imports`, `node_add_routing_policy` (policies reduced to names), `default_route_adjust`, `process_default_route`; crashes are `none` | Induction over import sources with an error-counting invariant, over VRFs and over routing protocols; concrete witnesses for the defects | proved | `C83_disabled_rejected`, `C83_vrf_import_crash`, `C83_auto_unsupported`, `C83_rip_kept`, `C83_removal_crash` |
| C84 | Setup of address pools and named prefixes | pool definitions, their merge and defaults, validation, generators, named prefixes | lookup characterisation of the merge, case analysis of checks, simulation of named prefixes by a request history and C03 | proved | `C84_prefix6_unchecked`, `C84_numbered_removed`, `C84_mgmt_unchecked`, `C84_static_overridden` |
| C85 | Outputs contain only managed devices | nodes, links, interfaces, link types, bridge names | per-link specification, then list lemmas | proved | `C85_ghost_link`, `C85_virtual_link` |
| C86 | Final cleanup of nodes | interface names, MTU checks and removal, daemon configuration files | case analysis, sums of error counts | proved |  |
| C87 | DHCP clients and relays | `link_pre_transform`, `check_protocol_support`, `set_dhcp_relay`, `check_dynamic_routing`, the node loop of `module_post_transform`, `get_remote_cp_endpoint` | the loop threads the partially changed topology; invariant: endpoints of servers never change, so each node is a function of the original topology; closed form of the interface step; acceptance as the zero of the error sum | proved | `C87_vlan_client_ignored`, `C87_unnumbered_server`, `C87_relay_errors` |
| C88 | BGP domains cut IBGP sessions | the `post_transform` hook of the bgp.domain plugin | flags after the loop over nodes are characterised by an invariant over the processed nodes (route reflector seen / needed); keys `domain:AS` are injective because AS numbers have no colon | proved | `C88_colon_crash`, `C88_localas_kept` |
| C89 | A BGP prefix test passes exactly when the table has a path with the requested attributes | validate/_common.py check_for_prefix/run_prefix_checks and the filters of validate/bgp/frr.py and eos.py over parsed tables | every check shown to be a filter that may report emptiness; induction over the list of checks; list-removal lemma for AS elements | proved | `C89_missing_two`, `C89_community_skips`, `C89_community_substring`, `C89_community_paths`, `C89_eos_vrf` |
| C90 | STP port types are inherited in a fixed order and wrong STP settings are rejected | modules/stp.py supports_stp, configure_stub_port_type, node_post_transform | case analysis of the inheritance per interface lifted over the list with mapM; error counts as sums | proved | `C90_vlan_crash` |
| C91 | File mappings of containers are normalized without losing files | data/filemaps.py and create_extra_files_mappings in providers/__init__.py | induction over chains of nested dictionaries, injectivity of dotted names, loop invariant of the template loop | proved | `C91_common_prefix`, `C91_bind_lost` |
| C92 | Forwarded ports are added once and management addresses must be in the management pool | get_forwarded_ports, validate_mgmt_ip in providers/__init__.py; add_forwarded_ports in providers/clab.py | invariant of the port loop; arithmetic on port numbers; subnet test equals inclusion of sets of addresses | proved | `C92_port_collision` |
| C93 | Vagrant interfaces, start batches and UDP tunnels of virtual machines | padding of interfaces, start batches, transformation of interfaces attached to libvirt links with the shared list of links threaded through the loops | strong induction on the padding loop and on batches; invariant: links change only in the bridge name; for bridged links the link itself is unchanged | proved | `C93_bridge_one_end`, `C93_empty_batch` |
| C94 | Every node gets a known device, a usable provider, an image, and default attributes without losing its own | provider, device and image processing of nodes represented as arbitrary dictionaries, with a fatal/error/ok result; copying of device attributes | characterization of every stage by the lookups in the resulting dictionary; induction over nodes | proved | `C94_device_provider`, `C94_provider_replaced` |
| C95 | Loopback addresses of nodes | Model/Loopback: loopback_interface on top of Model/Pools | requests of all nodes as a suffix of a history of allocations; uniqueness from disjoint prefixes of different requests (C04), containment from C03 | proved | `C95_pool_attribute`, `C95_ipv4_subnet` |
| C96 | Values of network data types | Model/AddrTypes: common_addr_parse and validators using it, parse_rdrt_value | text of addresses characterized by its four octets; case analysis of values and uses | proved | `C96_prefix_without_length`, `C96_multicast_subnet`, `C96_empty_net`, `C96_strange_rd` |
| C97 | Protocol-specific IGP processing | unnumbered interface checks, VRF instance names, strict BFD, attribute propagation, RIP timers, VRF protocol support, interface parameter support, router ID list, SRv6 locators | case analysis and induction over interfaces and VRFs; arithmetic for locators | proved | `C97_isis_other_intf`, `C97_vrf_intf_params`, `C97_srv6_contained` |
| C98 | Interface data created from links | attribute propagation from links to interfaces and neighbors, address cleanup, interface descriptions, parent interfaces, feature checks, node AF flags, gateway copying | induction over attribute lists, case analysis of values | proved | `C98_gateway_crash` |
| C99 | VLAN access links and VLANs without links | creation of single-node VLAN links and access links with link indices, attribute checks and copying, cleanup | induction over nodes, VLANs and links (append-only list) | proved | `C99_node_prefix`, `C99_no_mode` |
| C100 | Device data: attributes, features, daemons and lists of supported devices | lookup of device attributes and features, daemons, supported_on lists, final checks | induction over devices and features, lookup lemmas for merged dictionaries | proved | `C100_false_feature` |
| C101 | Attribute definitions and search path adjustments | copy_datatypes, adjust_attributes, copy_merge_attributes, adjust_paths, adjust_path_list | lookup of the mapped definitions, loop invariant over (namespace, attribute) pairs, induction on paths with unique keys | proved | `C101_chain_order`, `C101_missing_definition` |
| C102 | Ansible inventory | ansible.create, ansible_inventory_host, provider settings, get_host_addresses, ansible_inventory (file split) | folds over assignments and group operations, invariants on unique keys | proved | `C102_vrf_name_clash`, `C102_reserved_group` |
| C103 | Data type tests | type_test decorator: get_value_to_check, post_validation, check_valid_values, must_be_list | complete case analysis of a test against a specification of the tested value | proved | `C103_crash`, `C103_unexpected_value` |
| C104 | Errors, warnings and hints | log.error, warning, fatal, exit_on_error, repeat_warnings, init_log_system over arbitrary histories of calls | invariants of the error log, hints cache and static hints, induction on histories | proved | `C104_repeat_twice`, `C104_lines_counted`, `C104_quiet_hint`, `C104_init_keeps_warnings` |
| C105 | Lab validation tests and external tools | Model/TestEntry: the check of a test, the devices supported by a test, the list of tests; copying, checking and merging of tools | case analysis on the attributes of a test; induction on tests, tools and defaults | proved | `C105_unknown_tool` |
| C106 | Plugins | Model/Plugins: search for plugins in directories with redirections, sorting, dependency check and execution; plugin files are an oracle | induction on recursion depth, search path and list of plugins; C13_sorted for the order | proved | `C106_executed_twice`, `C106_bad_requires`, `C106_redirect_loop` |
| C107 | Topology versions, included files and CLI arguments | Model/ReadTopo: version specifiers and selection of versioned topologies (the packaging library is a parameter), include_yaml with found and parsed files as a parameter, CLI arguments | induction on files, values and settings; total preorder of versions | proved | `C107_missing_file`, `C107_operator_crash`, `C107_cli_crash`, `C107_include_replaces` |
| C108 | Device-specific adjustments of the transformed topology | Model/Quirks: quirk reporting, Ansible collections, Junos unit-0 renaming and loopback count, ArubaCX OSPF IDs and VSX roles, VLAN 1 and reserved VLANs, EOS bundles, Linux routing module, unknown devices, NVUE passive interfaces | string-splitting lemmas, counting induction, invariant over the node-by-node fold (PairRoles), filter/fold equalities | proved | `C108_version_text`, `C108_ceos_text`, `C108_junos_clash` |
| C109 | Module hooks, removal of modules, and node settings inherited by interfaces | Model/ModHooks: trace of hook calls in a stage, module reordering (on top of the dependency sort), module removal, copying of node and VRF settings into interfaces | trace membership/Nodup/Pairwise by induction over nodes and links; order via C13_sorted and closure under requirements; leaf-level merge lemmas | proved | `C109_extra_twice`, `C109_link_order`, `C109_copy_vrf_skipped`, `C109_copy_crash` |
| C110 | Topology and BGP graphs show every link and session exactly once | Drawn objects (clusters, nodes, networks, connections, sessions) instead of Graphviz/D2 text; AS and group clusters, links, BGP sessions and arrow directions | induction over nodes, groups, members and links; invariants on clusters and placed nodes | proved | `C110_host_missing`, `C110_two_clusters`, `C110_as_name`, `C110_d2_missing`, `C110_rr_false` |
| C111 | Plugins: bonding, originated prefixes, proxy ARP, VRRP version, shared VTEP addresses, missing configurations and multilab changes | Seven plugins: bonds per node, loopbacks for originated prefixes, proxy ARP and VRRP flags, shared VTEP loopbacks, checks of custom configurations, changes of the topology in multilab | induction over interfaces, nodes, links and nested dictionaries | proved | `C111_bond_peer_name`, `C111_bond_other_link`, `C111_proxy_arp_false`, `C111_check_stops` |
| C112 | Validation tests of neighbors, prefixes, routes and pings pass exactly when the device printout says so | `Model/Validators.lean`: the validation functions for BGP/OSPF/IS-IS neighbors and prefixes, routes and pings over structured printouts (missing attributes raise exceptions, exceptions fail the test) | exact characterisation of every function by case analysis and induction over printouts (first matching object), against `Spec/Validators.lean` | proved | `C112_bgp_no_peers`, `C112_bgp_missing_differs`, `C112_ospf_parallel`, `C112_isis_parallel`, `C112_ospf_missing_two`, `C112_route_missing`, `C112_ping_ten`, `C112_linux_route_missing`, `C112_linux_route_other` |
| C113 | Names, prefixes and data exported from groups | make_id, default topology name, parse_prefix, export_group_node_data, count_link_nodes, cleanup of pools and groups | induction over lists of characters, items, groups and nodes | proved | `C113_name_empty`, `C113_id_digit` |
| C114 | Commands executed on lab devices, in tools and on the host | inventory data of a node, SSH, Docker and show commands, tool commands, run_command, probes, provider status | order of dictionary updates; induction over texts with `$@`, lists and nested probes | proved | `C114_dry_validate`, `C114_missing_validate`, `C114_tool_last` |
| C115 | Execution of validation tests: commands, results, delays and selection of tests | commands of validation tests, extraction of JSON data, delays, selection of tests by node | decomposition of texts around the first bracket, induction over sleeps, folds over devices | proved |  |
| C116 | Addresses are unique in the whole lab | assign_link_prefix, set_fhrp_gateway, assign_interface_addresses and the loop of links.transform over the pool model of C03/C04, loopback model of C95 and IPAM model of C51; interface attributes other than addresses are left out | the log of all pool requests is split into loopbacks and links; pool theorems C03/C04 give disjoint prefixes, every assigned address is in its prefix, and the duplicate check covers addresses on the same link | proved | `C116_static_overlap`, `C116_unknown_pool`, `C116_static_lost` |
| C117 | Completed and interrupted lab commands leave a lab that can be cleaned up or restarted | the transition system of C36/C37 (Model/LabStatus); a command started when no other command is executed | sequential execution of a list of actions is shown equal to the run of the process; the state left by an interruption at step k is described by an invariant proved by induction on k; down and up are evaluated from any such state | proved | `C117_force` |
| C118 | Interface names are unique on a node | eval_format/str.format with the expressions that appear in device data, interface_name, *_interface_name, svi_interface_name, subif_name, mgmt_if, container interface names, host-side names in the clab template; interface creation from C10 | templates are split into literal text and expressions; decimal numbers are injective and separated from non-digits; different interface types begin with different texts; the device table is checked in full by the kernel; names of created interfaces follow from C10 | proved | `C118_static_name`, `C118_veth_clash` |
| C119 | Additions to a lab topology do not change the existing lab | composition of node identifiers (C02), loopbacks (C115), prefix allocation (C01), link addresses (C116) and node interfaces (C10) in the order of the transformation (plan); VLAN identifiers and VNIs (C20); VRF identifiers and route distinguishers (C21) | relation between the states of both transformations: identifier sets and pools of the larger lab contain those of the smaller one plus a set of reserved values that the smaller lab never used; preserved by every allocation step, by induction over nodes and links | proved | `C119_static_id_shifts`, `C119_loopback_pool_shifts`, `C119_vlan_prefix_shifts`, `C119_global_vlan_shifts`, `C119_global_vrf_shifts`, `C119_static_vni_shifts` |
| C120 | Endpoints of BGP sessions are unique and directly connected | composition: plan (C119) followed by build_bgp_sessions (C23, C24); BGP data is related to the results of address assignment by LabBgp (attributes that are not related to addresses are arbitrary) | the list of (name, address) pairs of sessions is a sublist of the list of (node, address) pairs in the lab: block structure of interface creation, one interface per node and link, sublist arguments for IBGP and EBGP lists; uniqueness from C116 | proved | `C120_two_interfaces`, `C120_daemon_local_as` |
| C121 | Both ends of BGP sessions agree | composition of plan (C119) and BGP sessions (C23, C24): neighbor entries carry BGP attributes of the remote interface (LabBgpAttr) | mutual neighbor entries from the block structure of interface creation; the sessions of both nodes are described with the same link-AS relation, with roles swapped | proved | `C121_address_family_mismatch` |
| C122 | Router identifiers are unique in the whole lab | composition of loopback addressing (C95), address pools (C03, C04) and router_id (C31) | invariant of router_id runs: every identifier is the loopback address or was handed out by the router_id pool for the node identifier; a pool that gets only indexed requests returns the subnet with that index (invariant of the generator cache) | proved | `C122_static_loopback`, `C122_overlapping_pools` |
| C123 | Lab cleanup removes the right files and can be repeated | fs_cleanup, down_cleanup, tool_cleanup and the cleanup part of run over file systems (functions from paths to kinds); failures and interruptions as parameters of every removal | relation OnlyRemoved is reflexive and transitive, induction over cleanup lists; the snapshot is the last element of the list | proved | `C123_link_to_directory`, `C123_dangling_link`, `C123_tool_failure` |
| C124 | The result does not depend on the order of Python sets | the iteration order (or the arbitrary choice) is a parameter of the models of the VRF, BGP, VLAN and plugin functions | two runs with different orders are compared: commuting updates and Perm.foldl_eq for cluster IDs; dictionaries with the same content and an append lemma for the VRF loop; singleton sets for VLAN choices; uniqueness of a linear order for configurations (from C54) | proved | `C124_undefined_vrfs`, `C124_node_vlan_prefix`, `C124_unrelated_configs` |
| C125 | The ends of a link agree on routing protocol adjacency | the path of protocol attributes from a link to interfaces: interface_data, copy_node_data_into_interfaces, external, passive, network_type, remove_unaddressed_intf; interfaces are not in VRFs | composition of C98, C109 and the interface loop of C56; the neighbor list of an interface contains the other nodes, so it is never a true stub | proved | `C125_area_mismatch` |
| C126 | VRFs of a VPN are connected and different VPNs are isolated | `vrfIdTransform` followed by `vrfRtTransform` (Model/Vrf); accepting routes = a common route target (Spec/Vpn) | outcome lemma for both passes (RD of the VPN or meaning of the written list), uniqueness of automatic RDs (C21) | proved | `C126_leak_without_globals`, `C126_node_vrfs_disconnected` |
| C127 | Static VXLAN flooding lists form a full mesh | `vxlanPost` (Model/Vtep) | flooding list expressed in terms of the resulting nodes, then symmetry of that relation | proved | `C127_mixed_flooding` |
| C128 | Both ends of a link use the same VLAN tags | `vlanTransform` (Model/Vlan), `createSvi` (Model/Svi), `mapTrunks` (Model/VlanTrunk), `vlanLink` (Model/VlanLinks) | composition: identifiers of node copies equal global identifiers (C20), interface identifiers equal node VLAN identifiers (C64), one access VLAN per link (C62) | proved | `C128_local_vlans` |
| C129 | Automatic addressing of a link fails only when the prefix is too small | `Model/NodeId`, `Model/Gateway`, `Model/Ipam` (existing); `Spec/AutoAddr` says when a prefix has room for the hosts and the gateway | composition of C02_node_ids, C29_gateway_id_not_node_id, C09_decision_table, C09_automatic_choice_succeeds and C51_duplicate_check_exact | proved |  |
| C130 | Resources of the lab host are created, used and cleaned up correctly | `Model/LabHost`: bridges, kernel modules, container images, Vagrant boxes, libvirt management network; the model lists all intermediate states of the host | invariant over all states of the loops (only lab bridges change), induction over bridges with an idempotent effect, induction over nodes and netlab modules | proved |  |
| C131 | Combinations of features that a device does not support are reported | `process_quirks` for all devices: errors reported by device-specific checks, and changes of Cumulus NVUE and EOS nodes | per-device equivalences between the computed number of errors and constructors of the specification predicate; induction over processed nodes for shared VTEPs | proved | `C131_unknown_vm`, `C131_native_local` |
| C132 | Hosts reach every address pool through a gateway | add_host_static_routes with the DHCP scan (Model/HostRoutes), composed with static route resolution (Model/StaticRoutes) | case analysis of the scan by number of DHCP client interfaces, induction over nodes; characterisation of the gateway loop by address family, independence of the gateway cache; decided witnesses for defects | proved |  |
| C133 | External tools are started and stopped with the right commands, and lab status is reported correctly | tool data, runtime, parameters, commands, the topology changes made between tools, message, SSH address; instance selection, status rows, Vagrant and Docker printouts | dictionary merge lemmas; invariant: the parts of topology used by tools are not changed by earlier tools; induction over tools and printouts | proved | `C133_default_runtime`, `C133_unrelated_container` |
| C134 | Networks of libvirt labs are correct | XML template as tokens, text and address substitutions, node bindings; pre_transform of links; post_start_lab; capture interface and domiflist printout | symbolic evaluation of the substitutions with divisibility arithmetic, induction over nodes, links and printouts | proved | `C134_mgmt_crash`, `C134_mgmt_wrong`, `C134_capture_wrong` |
| C135 | Files generated for containers come from the right templates | find_extra_template, create_extra_files composed with the mapping code of C91, find_config_file and clab_config_adjust (`Model/ExtraFiles`) | search as find? over candidates, replacement lemma for the folder prefix, induction over mappings; case analysis for archives | proved | `C135_other_node` |
| C136 | LAG members and MLAG peer links become physical links | normalization of LAG members, creation of member links and MLAG peer links, MLAG pairs and MLAG groups; parsing of members and device features are parameters | invariant over the loop over links (positions of original links, children of every LAG, used identifiers) | proved | `C136_empty_members`, `C136_empty_peer` |
| C137 | First-hop gateways on nodes | check_protocol_support, cleanup_unicast_ip and node_post_transform over the interfaces of a node, using the model of cleanup_intf_protocol_parameters from C29 (`Model/GatewayNode`) | case analysis of the three outcomes, membership in the list of active protocols by induction over interfaces, C29_protocol_parameters for the merged parameters | proved |  |
| C138 | A VLAN extended with VXLAN connects the nodes that have it and no others | composition of the models of C20 (VLAN identifiers and VNIs), populate_node_vlan/create_node_vlan, and C50/C127 (tunnel endpoints and flooding lists) (`Model/VxlanSegments`) | the VNI of a VLAN in a node is the VNI of the definition that decides about it (no errors: a node cannot change it); uniqueness of automatic VNIs (C20) and the full mesh (C127) | proved | `C138_static_clash` |
| C139 | netlab restart stops the lab before it is started again | the arguments of netlab restart as text, the filter used for netlab down, and acceptance by the argument parser of netlab down (`Model/LabCommands`) | induction over the arguments | proved | `C139_topology_rejected` |
| C140 | netlab test leaves no traces and reports the result of the test | run, copy_topology, cleanup_force and cleanup_working_directory over a file system given as a list of paths; commands are functions of the file system (`Model/LabCommands`) | case analysis of outcomes; lemmas about removal of a directory tree | proved | `C140_nested` |
| C141 | netlab collect archives the collected configurations | run, get_tarball_file and fs_cleanup over a file system given as a list of paths; the playbook is a function of the file system (`Model/LabCommands`) | case analysis of outcomes; lemmas about removal of a directory tree | proved | `C141_instance_tarball` |
| C142 | Unsupported directions and values of BGP policy attributes are reported once | `check_attribute_direction` as a fold over all attributes of all neighbors with the list of reported errors as its state; device features are a parameter | invariant of the fold: reported errors are unique and the kind of the error agrees with the device features; induction over directions and attributes | proved |  |
| C143 | The Graphite graph shows the topology | `short_ifname`, `nodes_items`, `links_items`; nodes and links are structures with the attributes used by the tool, the graph is a dictionary of nodes and a list of pairs of interfaces | induction over links; names of bridge nodes are unique because link indexes are unique and node names do not start with a parenthesis | proved | `C143_short_names` |
| C144 | VRFs used on interfaces are defined in nodes | `node_post_link_transform` of the VRF module as a fold over interfaces followed by the merge of global VRF data | loop invariant describing the VRFs of the node and the reported VRFs; leaf semantics of dictionary merge (C17) | proved |  |
| C145 | 'netlab show' commands display exactly the content of system defaults | Model/Show: data displayed by netlab show devices, images, module-support and modules in table, text and YAML formats, from lists of devices and modules with arbitrary features | Membership characterisations of sorted filtered lists; the YAML dictionary by induction on the fold that sets keys; columns of the feature table by induction on nested dictionaries | proved | `C145_modules_yaml`, `C145_support_yaml_all`, `C145_support_yaml_lost`, `C145_columns` |
| C146 | Validation tests use the right plugin and the right action, and only selected tests are executed | Model/TestPlugin: plugin lookup on the search path, cache of (also negative) results, reported errors, sequences of requests with changing files; test selection; Model/Validation: selection of the test action | Invariant over sequences of requests: the state of a device is determined by its first request; case analysis for the action and test selection | proved | `C146_repeated` |
| C147 | Output modules and tool configuration files are created as specified | parsing of output specifications, the loop of `netlab create`, formats of the YAML output, files of external tools | lemmas about splitting and joining texts; induction over output modules, formats and tool entries | proved | `C147_settings`, `C147_truncated`, `C147_unknown`, `C147_tools_empty` |
| C148 | Device features copied or merged from another device are those of the other device | copy and merge requests between devices | list of outermost requests, requests do not overlap, invariant over processed requests | proved | `C148_order` |
| C149 | Displayed data are the requested data | `inspectValue`, `yamlWrite` (cli/inspect.py:50-57, outputs/yaml.py:22-71) and `attrSubset` (cli/show_commands/attributes.py:32-58) | round trip of the output specification (C147) and case analysis; leaves of merged dictionaries | proved | `C149_colon`, `C149_equal` |
| C150 | Routing filters are normalized as specified | `rnDefaults`, `rnPath`, `rnAspath`, `rnObjects`, `rnData` (modules/routing.py:25-36, 84-132, 409-449) | lookups of changed dictionaries, induction on lists of entries and objects | proved |  |
| C151 | Virtual machines and containers have unique names | `vmName`, `containerName`, `boxImage`, `outputLinks`, `externalLab` (providers/libvirt.py:434-435, clab.py:250-252, __init__.py:88-94, 255-260, external.py:13-16) | injectivity of names split at the first separator; case analysis | proved | `C151_vm_clash`, `C151_vm_dot`, `C151_box_version` |
| C152 | netlab install executes the requested scripts | `instSudo`, `instPip`, `instCheck`, `instScripts`, `instRun` (cli/install.py:67-201) | induction on the list of scripts, case analysis of flags | proved | `C152_sudo_lost` |
| C153 | Commands that stop labs, forget labs or kill containers ask for confirmation and touch only what was selected | Answers as a list of texts; the status command as a function from arguments, status file, current directory, answers and snapshots to the list of actions; the commands executed by clab cleanup from the printout of docker ps. | Induction over the answers; an explicit list of spellings of yes and no in the specification, proved equal to the lower-case comparison; case analysis of the options; splitting of lines is the inverse of joining them. | proved | `C153_no_containers` |
| C154 | netlab libvirt package builds, installs and cleans up | The build process as a sequence of steps with an oracle for the outcome of each step and for the things left behind by failing steps; the commands that create the disk as lists of words; the version check character by character. | Induction over the list of steps (executed steps are a prefix, the result is the first failure), case analysis of outcomes, splitting of commands into words is the inverse of joining words. | proved | `C154_answer_ignored`, `C154_left_behind`, `C154_skip_preinstall`, `C154_wrong_disk` |
| C155 | Duplicate addresses in VLANs are reported | `check_vlan_duplicate_address` and `check_duplicate_address` on the neighbor lists built by the model of VLAN interfaces (module VlanDup) | A loop invariant of the duplicate check (no error iff addresses are distinct and unused) composed with the specification of VLAN neighbor lists (C65) | proved | `C155_missed` |
| C156 | Users are warned about LAG links that cannot work | Marking of multi-provider links, selection of link types and bridge names, the list of warnings with the cache of nodes, and the removal of temporary links | Induction over links with the cache of reported nodes; sorted lists of the same names are equal; case analysis of link types | proved | `C156_false_alarm` |
| C157 | Logging and debugging flags are the ones that were requested last | The three functions changing and testing global flags, and arbitrary sequences of calls | Invariant over the calls after the last request; case analysis of arguments | proved |  |
| C158 | VLAN access interfaces end with their own neighbors and descriptions | VLAN node_cleanup and get_interface_description, composed with the model of VLAN interfaces (C64) | pointwise relation between original and final interfaces, from the invariant of the interface creation loop | proved |  |
| C159 | Every DHCP server serves all DHCP clients | set_dhcp_server_pools and the loop over nodes, composed with build_topology_dhcp_pools (C46) | induction over nodes with the invariant that the pools are empty without errors or complete; C46_pools | proved |  |
| C160 | Duplicate keys in YAML files are rejected | UniqueKeyLoader.construct_mapping over a tree of YAML nodes | mutual structural induction over nested nodes; the list of seen keys as the invariant | proved |  |
| C161 | The device inventory describes all nodes | create in the devices output module, composed with adjust_inventory_host (C114) | induction over nodes with a frame lemma for other keys; C114_host for the settings | proved | `C161_node_all` |
| C162 | Transit VNIs of VRFs and VNIs of VLANs do not clash | register_static_transit_vni, composed with the models of VLAN VNIs (C20) and transit VNIs (C22) in the order of the transformation | induction over VRFs for the registered set; freshness of automatic VNIs from the C20 invariants; C22 for transit values | proved | `C162_auto_clash` |
