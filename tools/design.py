import json
P=[json.loads(l) for l in open('/verif/properties.jsonl')]
M={c['property']:c for c in json.load(open('/verif/MANIFEST.json'))['claims']}
rows={
"C01":("identifier sets of `_dataplane.py` as a state (set, counter)","invariant over arbitrary histories of reservations and allocations; termination by the measure max − next"),
"C02":("validation and identifier phase of `nodes.py`","fold invariant on top of C01; negative result for numeric strings"),
"C03":("address pools as generator position plus cache","invariant: handed-out prefixes are an initial segment of the subnet stream; arithmetic of aligned blocks"),
"C04":("`get_nth_subnet` and the pool cache","invariant of C03; alignment arithmetic"),
"C05":("`get_pool`, `get` over a list of pools","induction over the list of pools"),
"C06":("`IPAM_id_based`","arithmetic on host parts"),
"C07":("`IPAM_sequential`","induction over the interface list"),
"C08":("`IPAM_p2p`","case analysis"),
"C09":("`get_prefix_IPAM_policy` followed by the chosen policy","case analysis on prefix size, corner cases as counterexamples"),
"C10":("`get_unique_ifindex`, `add_node_interface`","induction over the list of links, loop invariant of the search"),
"C11":("`get_next_linkindex`, `set_linkindex` and all functions appending links","fold invariant"),
"C12":("`create_node_interfaces`, neighbor lists","induction over links, membership characterization"),
"C13":("`utils/sort.dependency`","loop invariant, counting argument for the watchdog"),
"C14":("`check_recursive_groups`, `group_members`","fuel-bounded recursion against an inductive reachability specification"),
"C15":("`copy_group_node_data`, `copy_group_device_module`","fold precedence lemmas"),
"C16":("`node_config_templates`","list equalities"),
"C17":("`Box` merge on nested association lists","structural induction on values"),
"C18":("`merge_node_module_params`, `merge_global_module_params`","fold of merges, C17"),
"C19":("`check_module_dependencies`, `adjust_modules`","soundness and completeness by list reasoning"),
"C20":("VLAN and VNI allocation","C01 plus fold invariants"),
"C21":("VRF identifiers, RD and RT values","C01 plus fold invariants; counterexamples"),
"C22":("transit VNI allocation","fold invariant; counterexample"),
"C23":("`build_ibgp_sessions`","membership characterization, symmetry"),
"C24":("`build_ebgp_sessions`","membership characterization, symmetry"),
"C25":("`import_routing_object`, `import_policy_filters`","fold and sorting lemmas"),
"C26":("`expand_prefix_list`, `adjust_pfx_min_max`","arithmetic on prefix lengths, set-of-prefixes semantics"),
"C27":("`number_aspath_acl`, community lists","fold invariant"),
"C28":("`include_global_static_routes`","measure for include expansion; reachability"),
"C29":("`gateway.py`","case analysis, arithmetic"),
"C30":("`_routing.passive` and its helpers","case analysis"),
"C31":("`_routing.router_id`","case analysis"),
"C32":("`asdot_parsing`","arithmetic on digit strings"),
"C33":("`must_be_int`","case analysis on value kinds; digit arithmetic"),
"C34":("`validate_attributes` and callees","mutual structural induction over definitions and data"),
"C35":("`_nodeset.py`","membership characterization"),
"C36":("status file: five-step updates, interleaved processes, crashes","inductive invariant over all histories; counterexample histories"),
"C37":("directory lock of `up`, `down`, `create`","inductive invariant over all histories with crashes"),
"C38":("`netlab validate` loop","induction over an arbitrary stream of device responses and clock readings"),
"C39":("`components.py`","fuel-indexed expansion with a termination theorem; invariant of the expansion loop"),
"C40":("`fabric` plugin","counting, product lists, relational list lemmas"),
"C41":("`node.clone` plugin","relational list lemmas (`Forall₂`)"),
"C42":("MLAG peers in `lag.py`","case analysis, arithmetic modulo 65536"),
"C43":("`process_device_inheritance`","induction on the chain of parents"),
"C44":("`find_file`, `get_search_path`","list lemmas; the file system is a parameter"),
"C45":("`bfd.py` link state","case analysis"),
"C46":("`build_topology_dhcp_pools`","fold invariants"),
"C47":("management interfaces in `nodes.py`","arithmetic, fold invariant"),
"C48":("`utils/read.py` defaults","merge laws of C17"),
"C49":("`select_primary_provider`","case analysis"),
"C50":("`vxlan.py` VTEP lists","membership characterization"),
"C51":("`check_duplicate_address`","induction over interfaces"),
"C52":("interface MTU in `create_node_interfaces`","case analysis"),
"C53":("`set_link_bridge_name`","string length arithmetic"),
"C54":("`sort_extra_config`","C13 plus list lemmas"),
"C55":("`build_bgp_rr_clusters`","minimum over a filtered list"),
"C56":("`_routing.py` IGP interface clean-up","pointwise list characterization"),
"C57":("`check_required_keys`, `check_valid_with`","induction, case analysis"),
"C58":("`adjust_link_list`, `adjust_link_object`","mutual structural induction"),
"C59":("`lag.py` member links and interfaces","fold invariants, relational list lemmas"),
"C60":("static route resolution in `routing.py`","case analysis per address family, list membership"),
"C61":("`add_host_static_routes`","membership characterization"),
"C62":("`validate_link_vlan_attributes`, `check_link_vlan_attributes`","error-count reasoning: zero errors imply the property"),
"C63":("VLAN modes, prefixes and member links","relational list lemmas; set choice is a parameter"),
"C64":("`create_svi_interfaces`","loop invariant over interfaces"),
"C65":("`update_vlan_neighbor_list`, `set_svi_neighbor_list`","invariant over the sequence of updates of all nodes"),
"C66":("`rename_vlan_subinterfaces` and trunk checks","position-indexed loop invariant, transferred to values by uniqueness of indices"),
}
rows.update(json.load(open('/verif/tools/design_rows.json')))
t='''# Formal model of netlab (ipspace/netlab) in Lean 4

## What is being verified

netlab turns a lab topology (a YAML file) into a fully expanded data model
(node IDs, addresses, interfaces, VLANs, VRFs, BGP sessions, routing policies...)
and manages the life cycle of the lab.  The properties are listed in
`properties.jsonl`; this file says how each one is modelled and proved, what the
trusted base is, and which parts of the code are outside of the model.

## Layout

* `lean/Verif/Model/*.lean` – executable model of the Python code, function by
  function; every definition cites the file and lines it models.
* `lean/Verif/Spec/*.lean` – small specifications, stated without any of the
  model's helpers (prefix containment and overlap, reachability, ...).
* `lean/Verif/Lemmas/*.lean` – helper lemmas.
* `lean/Verif/Props/*.lean` – the property theorems (`C01_...`), each followed by
  `example`s that instantiate the hypotheses on a concrete non-trivial case.
* `MANIFEST.json` – property → theorem names, status and notes.
* `AXIOMS.txt` – output of `#print axioms` for every theorem in the manifest
  (`tools/axioms.py`).
* `seeded/LOG.jsonl` – mutation experiments on the model (`tools/mutate.py`).
* `tools/citations.py` – checks that cited files, lines and symbols exist;
  `tools/coverage.py` – generates the coverage table below.

## Modelling conventions

* The model is shallow: Python functions become total Lean functions on
  `List`/`Nat`/`Int`/`String`/`Option`/structures.  Data that a function does not
  look at is omitted; a comment at the definition says so.
* `log.error(...)` records an error and carries on; it is modelled by a returned
  error list/flag (or error count).  `log.fatal(...)`, `sys.exit` and Python
  exceptions are modelled as `Except`/`Option` results that stop the computation.
  "The transformation succeeds" means: no fatal result and no recorded error –
  this is what `log.exit_on_error()` checks after every phase
  (`netsim/augment/main.py`).
* Python dictionaries keep insertion order; they are association lists.  Sets
  whose order is irrelevant are lists tested for membership.  Where the code picks
  an arbitrary element of a set, the choice is a parameter (`pick`), so theorems
  hold for every choice.
* `while` loops whose termination is part of the property are modelled with a
  measure or with fuel plus a theorem that the fuel is never the reason for the
  answer.
* IP addresses are natural numbers below `2^w` (`w` = 32 or 128), prefixes are
  pairs (network address, prefix length).  Text rendering and parsing of
  addresses (`ipaddress`, `netaddr`) is not modelled; where text matters, the
  rendering function is a parameter, assumed injective in the theorem statement
  if that is needed.
* Concurrency and crashes (C36, C37) are transition systems: a state contains the
  file system and the program counters of all processes, a history is an
  arbitrary sequence of steps and crashes of any process.
* External behaviour (device responses, clock, file system, `fnmatch`, Python
  f-string evaluation, Jinja2 expressions) is a parameter or an arbitrary stream;
  theorems quantify over it.
* When the code does not have the property one would expect, the statement in
  `properties.jsonl` is restricted to what is true, with the exception
  proved as a separate theorem with a concrete witness.  The witnesses are
  listed in the table and in the manifest.

## Trusted base

* Lean 4.33.0 kernel; the axioms used by the theorems are at most `propext`,
  `Classical.choice` and `Quot.sound` (see `AXIOMS.txt`).  No axioms are added, no
  theorem uses `sorry`, `native_decide` or `bv_decide`.  `decide` (also
  `decide +kernel`, which is evaluated by the kernel) is used only for concrete
  examples and counterexamples.
* The hand translation of Python code into the model (checked by reading, with
  line citations) including our reading of Python, `Box` and `ipaddress`
  semantics.  In particular:
  * `python-box`: `get_box` of an empty YAML document is an empty box; assigning
    a Box copies it; dotted keys address nested dictionaries; `a + b` is a deep
    merge in which `b` wins; reading a missing key of a default box yields an
    empty box;
  * Python `int()` and `str.strip()` are modelled for ASCII text only;
  * Python's recursion limit is not modelled (recursion that does not end is
    reported as such, e.g. C39);
  * the order of iteration over sets is never assumed;
  * text comparison of addresses and identifiers is comparison of strings.
* Files are written with the POSIX semantics described in `Model/LabStatus.lean`:
  opening for writing truncates, writes are separate steps, advisory locks are
  released when the process ends.

## Not modelled

YAML parsing, Jinja2 templates and generated device configurations, provider
back-ends (libvirt, containerlab, VirtualBox), Ansible, reports, graphs and other
outputs, the operating system except where a file-system or process step is a part
of a property, text of messages, debugging output.  Within modelled functions, the
comment at each definition lists what was left out.  The table lists modelled
functions (at least in part) per module of the model.

<!-- coverage -->
<!-- /coverage -->

## Properties

"Exceptions" are theorems with a concrete witness showing where the code does not do
what one would expect.

| id | title | modelled | proof method | status | exceptions |
|----|-------|----------|--------------|--------|------------|
'''
import re,glob
text=''.join(open(f).read() for f in glob.glob('/verif/lean/Verif/Props/*.lean'))
for p in P:
  i=p['id']; a,b=rows[i]
  th=list(dict.fromkeys(re.findall(r'^theorem (%s_\w+)'%i,text,re.M)))
  note=M[i].get('note','')
  pos='C07_sequential_skips_gateway C11_default_start_is_positional C21_autos_differ C32_accepted_iff C33_integers C33_accepted_in_range C34_unknown_reported C34_no_false_alarm C36_owner_kept C36_one_directory C36_removed_by_owner C39_terminates C41_links C63_members C22_transit_vnis_differ C67_bgp_neighbors C67_ldp_interfaces C67_supported C67_6pe_symmetric C67_accepted C68_session_attributes C69_route_servers C70_accepted_iff C70_as_numbers C71_link_roles C71_vlan_roles C72_advertised_prefixes C72_address_families C72_activation C72_originated C73_communities C73_accepted_iff C74_services C74_targets_differ C75_neighbors C75_symmetric C75_lists C75_route_distinguishers C75_distinguishers_differ C75_accepted_iff C75_irb C76_sessions C76_nodes C76_accepted_iff C77_reference_lists C78_neighbors C78_user_policies C78_accepted_iff C79_normalized C79_normalization_fails_iff C79_device_support_iff C79_accepted C79_accepted_iff C80_created C80_precheck_iff C80_names_differ C80_accepted_iff C80_members C80_as_accepted_iff C80_as_groups C81_default_type C81_type_kept C81_default_accepted C81_role C81_accepted C81_group_links C81_groups_accepted_iff C82_removed C82_accepted_iff C82_indices C82_families C82_loopbacks C82_no_loopbacks C82_pool_addresses C82_route_leaking C82_vpn_families C83_accepted_iff C83_imports C83_node_accepted_iff C83_node C83_removed C83_removed_iff C83_default_routes C84_definitions C84_accepted_iff C84_generators C84_named_disjoint C84_named_static C84_named_stable C85_nodes C85_links C85_complete C85_identity C85_idempotent C85_no_errors C86_accepted_iff C86_interfaces C86_effective_mtu C86_daemon_config C86_limits C87_link_clients C87_link_modules C87_link_subnet C87_link_accepted_iff C87_accepted_iff C87_result C87_order C88_accepted_iff C88_sessions C88_symmetric C88_crash_iff C89_frr_present C89_frr_missing_sound C89_frr_missing_single C89_frr_community C89_frr_community_missing C89_eos_present C89_eos_missing_sound C89_eos_community C90_result C90_unique C90_accepted_iff C90_disabled C91_dict C91_box C91_dict_rejected C91_list C91_round_trip C91_extra C91_crash_iff C92_ports C92_host_ports C92_mgmt_iff C92_mgmt_crash C93_pad C93_batches C93_tunnel C93_no_tunnel C93_lan_bridge C94_accepted C94_secondary C94_no_spurious C94_attributes C91_other C91_no_templates C95_unique C95_not_in_earlier C95_static C95_assigned C95_checked C94_names C94_daemon C96_ipv4_text C96_prefix_length C96_ipv4 C96_id C96_stable C96_ipv6 C96_named C96_bool C96_reference C96_mac C96_rd C96_rd_parts C96_net C96_prefix_str C97_ospf_unnumbered C97_isis_unnumbered C97_isis_instances C97_strict_bfd C97_vrf_copy C97_loopback_area C97_rip_timers C97_rip_instances C97_vrf_protocol C97_intf_params C97_router_ids C97_srv6_locators C97_srv6_loopback C98_propagated C98_propagated_attributes C98_neighbor_data C98_addresses C98_bad_addresses C98_parent C98_features C98_node_af C98_ifname C98_interface_name C98_gateway C98_gateway_ready C99_vlan_links C99_every_vlan C99_one_link C99_members_removed C99_access_links C99_attributes C99_copied_attributes C99_renamed C99_internal_attributes C100_attribute C100_features C100_daemons C100_daemon_attributes C100_device_features C100_supported_on C100_final C101_node_types C101_interface_types C101_search_paths C101_new_search_paths C101_copied C101_copy_errors C101_copy_total C102_host_vars C102_members C102_host_data C102_children C102_group_vars C102_topology_group_vars C102_split C102_host_files C102_inventory_file C102_addresses C102_loopback_addresses C102_device_group C103_other_settings C103_accepted C103_errors C103_silent C103_stable C103_list C104_exit_on_error C104_logs_grow C104_warnings_never_abort C104_messages C104_disabled C104_exit_request C104_repeat C104_hint_once C104_disable_hint_once C104_disable_hint_shown C104_static_hint_once C105_accepted C105_devices C105_list C105_errors C105_supported C105_no_crash C105_tools C105_tools_start C106_not_found C106_loaded C106_order C106_execute C106_compose C106_requires C107_version C107_versioned C107_any_order C107_file_exists C107_includes_done C107_no_includes C107_included C107_include_keeps C107_include_top C107_cli_value C107_cli_setting C107_cli_wins C107_cli_plugins C107_cli_provider C107_cli_list C107_cli_stages C107_cli_parts C108_reported C108_first_location C108_collection C108_reported_once C108_parts_unique C108_junos_names C108_junos_distinct C108_junos_vrf C108_junos_again C108_junos_master C108_junos_mtu C108_junos_native C108_loopbacks C108_ospf_index C108_vsx_roles C108_tagged_1 C108_reserved C108_linux C108_bundle C108_unknown C108_passive C108_passive_value C106_redirect C107_requirement C107_include_all C109_calls C109_stages C109_once C109_no_crash C109_order C109_reorder_keeps C109_remove C109_copy C109_copy_disabled C109_copy_each C110_as_clusters C110_one_as C110_group_clusters C110_links C110_crash C110_nodes C110_as_graph C110_d2_links C110_sessions C110_session_drawn C110_direction C111_bonds C111_bond_members C111_bond_interfaces C111_originate C111_proxy_arp C111_vrrp C111_vtep C111_vtep_shared C111_vtep_ok C111_check C111_multilab_eval C111_multilab_merge C111_multilab_init C112_bgp_frr C112_bgp_frr_up C112_bgp_frr_missing C112_bgp_eos C112_bgp_eos_up C112_bgp_details C112_ospf_frr C112_ospf_frr_flat C112_ospf6_frr C112_ospf_eos C112_ospf_prefix C112_ospf_prefix_missing C112_ospf6_prefix C112_ospf_prefix_eos C112_isis_neighbor C112_isis_prefix C112_route C112_route6 C112_ping C112_default6 C112_linux_route C112_linux_route_waiting C113_id_chars C113_id_text C113_topology_name C113_prefix_dict C113_prefix_legacy C113_prefix_text C113_export_value C113_export_objects C113_export_errors C113_counts C113_clean_pools C113_clean_groups C114_host C114_substitute C114_show C114_command C114_ssh C114_docker C114_method C114_run_started C114_run_result C114_up_validate C114_probe C114_probe_quiet C114_provider_status C115_command C115_plugin C115_json C115_json_none C115_parsed C115_wait C115_wait_until C115_extend C115_first C115_filter C115_suzieq C116_unique C116_pool_choice C116_own_prefix C116_in_prefix C116_gateway C117_isolation C117_down C117_up C117_recovery C117_restart C117_after_history C117_roundtrip C118_unique C118_devices C118_named C118_mgmt C118_lab C118_lab_mgmt C118_container C118_veth_multilab C118_veth_length C118_veth C118_svi C118_subif C119_node_ids C119_lab C119_vlans C120_neighbors C120_unique C120_connected C121_ebgp C121_ibgp C122_unique C123_only C123_dry_run C123_complete C123_snapshot_last C123_repeat C123_modified C124_sorted C124_rr_clusters C124_vrf_ids C124_vlan_link C124_configs C125_same C125_interface C125_disabled C125_attributes C126_connected C126_isolated C126_named C127_mesh C127_reciprocal C128_interface_tag C128_same_tag C128_different_tags C128_trunk_tags C128_trunk_ends C128_access_link C119_vrfs C119_node_vrfs C119_vnis C129_automatic_addresses C130_start C130_start_stop C130_kernel_modules C130_container_images C130_installed_box C131_reported C131_fewer C131_loopbacks C131_mlag_pair C131_eos_interfaces C132_hosts C132_gateway C132_reachable C133_start C133_accepted C133_rows C133_vagrant C134_mgmt_network C134_links C134_bridges C134_capture_host C116_static_address C135_template C135_files C135_startup C135_own_file C136_plain C136_lag C136_peer C136_peers C136_groups C136_nothing_else C136_all_processed C136_invalid C59_supported C116_unnumbered C116_unnumbered_link C137_support C137_unicast C137_settings C137_node_parameters C137_module C138_members C138_connected C138_isolated C139_restart C140_existing C140_success C140_removed C141_output C141_archive C141_tarball_name C142_reported C142_clean C143_nodes C143_endpoints C143_connected C143_interfaces C143_attributes C143_interface_names C144_reported C144_vrfs C144_attributes C59_mlag_accepted C67_no_ldp C145_devices C145_support C145_support_yaml C145_modules C145_features_yaml C146_action C146_once C146_precedence C146_tests C147_parse C147_module C147_outputs C147_yaml C147_tools C148_unchanged C148_copy C148_merge C148_valid C148_missing C149_inspect C149_attributes C149_interface C150_entry C150_prefix C150_objects C150_errors C150_data C150_idempotent C151_vm_unique C151_vm_labs C151_containers C151_box C151_links C151_external C152_prefix C152_ready C152_stop C152_complete C152_sudo C152_pip C152_no_flags C153_confirm C153_stop C153_stopped C153_remove C153_conflict C153_all C153_nodes C153_log C153_docker C154_not_started C154_success C154_order C154_interrupt C154_exception C154_installed C154_disk C154_version C34_alternative_accepted C34_single_value C34_false_empty C34_type_options C34_module_false C46_gateway C38_skipped C155_reported C155_gateway C155_no_false_alarm C156_warned C156_once C156_same_nodes C156_text C156_quiet C156_links C26_limit_accepted C157_last_request C157_unchanged C157_stays_on C157_verbose C157_debug C157_returned C110_d2_sessions C110_d2_direction C158_restored C158_others C158_clean C159_servers C159_same C159_vrf C159_errors C160_accepted C160_reported C160_complete C161_nodes C161_only C161_pools C162_static_transit C162_reported C162_auto_transit C149_files C150_all_errors'.split()
  ex=[x for x in dict.fromkeys(re.findall(r'\b%s_\w+'%i,note)) if x in th and x not in pos]
  
  t+=f"| {i} | {p['title']} | {a} | {b} | {M[i]['status']} | {', '.join('`'+e+'`' for e in ex)} |\n"
if any(c['status']=='partial' for c in M.values()):
  t+='''
Partial properties: the full statement stays in `properties.jsonl`; what is missing is
in the note of the manifest entry.

'''
  for p in P:
    if M[p['id']]['status']=='partial': t+=f"* {p['id']}: {M[p['id']]['note']}\n"
open('/verif/DESIGN.md','w').write(t)
