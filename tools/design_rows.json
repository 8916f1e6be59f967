{
 "C67": [
  "`node_adjust_ldp`, `validate_mpls_bgp_parameter`, BGP-LU, VPN and 6PE neighbor adjustments, feature checks, both phases of the module with attribute validation",
  "case analysis of settings, `Forall₂` over neighbors through the three phases"
 ],
 "C68": [
  "bgp.session plugin: copying of attributes, support checks, removal of leftovers (`Model/BgpSession`)",
  "invariant over the loop over nodes relating every current neighbor entry to the original one"
 ],
 "C69": [
  "bgp.session plugin: route server processing and pruning (`Model/BgpSession`)",
  "closed form of the inner loop, invariant indexed by the set of processed nodes"
 ],
 "C70": [
  "AS list, node data and errors",
  "invariant of the loop over the AS list, then per node"
 ],
 "C71": [
  "links, VLANs and the sets of AS numbers collected for VLANs",
  "invariant of the loop over links: AS numbers seen so far for every VLAN"
 ],
 "C72": [
  "interfaces, neighbors, address family flags, named prefixes",
  "case analysis per interface and neighbor; flags as disjunctions over lists"
 ],
 "C73": [
  "community settings and keyword tables",
  "induction over keywords and words"
 ],
 "C74": [
  "global VLANs, VRFs, EVPN attributes, list of EVPN VLANs",
  "invariant of the loop over the list: what was done for every VLAN and VRF so far"
 ],
 "C75": [
  "EVPN data of a node, global lists, features",
  "per neighbor, VLAN and VRF; substring test characterised"
 ],
 "C76": [
  "sessions, link indices, node interfaces, VRFs and neighbors",
  "loop over nodes equals a map because loopbacks of VRFs are kept; per neighbor case analysis"
 ],
 "C77": [
  "the reference list, local and global names, default filter result",
  "induction over the global list"
 ],
 "C78": [
  "bgp.policy plugin: post_transform for a node with apply_policy_attributes, append_policy_attribute, create_routing_policy, apply_bgp_routing_policy, fix_bgp_bandwidth (`Model/BgpPolicy.lean`); checks of device features and routing policies are parameters",
  "Fold invariant over attributes, then induction over neighbors and interfaces; names of route maps are injective in the counter, so later neighbors leave earlier route maps alone."
 ],
 "C79": [
  "normalization of policy entries, device checks, import of policies and of filters used by policies, import of filters",
  "specification of every function, invariants over the policies and filters of the node, crash witnesses"
 ],
 "C80": [
  "basic checks of groups, creation of objects from group members, members of topology and default groups, groups listed in nodes, BGP AS groups",
  "specification of every step, invariants of the loops, composition; witnesses for the defects"
 ],
 "C81": [
  "set_link_type_role, check_link_type, expand_groups over normalized links",
  "case analysis on types; counting lemma for routers; induction over links and members, C17 for merged attributes"
 ],
 "C82": [
  "VRF node_post_transform and vrf_loopbacks; addresses from the pool are a function of the number of allocations",
  "fold invariants over interfaces and VRFs, stable insertion sort, plan of loopbacks as an inductive specification"
 ],
 "C83": [
  "`check_import_request`, `process_imports`, `is_vrf_protocol`, `remove_vrf_imports`, `node_add_routing_policy` (policies reduced to names), `default_route_adjust`, `process_default_route`; crashes are `none`",
  "Induction over import sources with an error-counting invariant, over VRFs and over routing protocols; concrete witnesses for the defects"
 ],
 "C84": [
  "pool definitions, their merge and defaults, validation, generators, named prefixes",
  "lookup characterisation of the merge, case analysis of checks, simulation of named prefixes by a request history and C03"
 ],
 "C85": [
  "nodes, links, interfaces, link types, bridge names",
  "per-link specification, then list lemmas"
 ],
 "C86": [
  "interface names, MTU checks and removal, daemon configuration files",
  "case analysis, sums of error counts"
 ],
 "C87": [
  "`link_pre_transform`, `check_protocol_support`, `set_dhcp_relay`, `check_dynamic_routing`, the node loop of `module_post_transform`, `get_remote_cp_endpoint`",
  "the loop threads the partially changed topology; invariant: endpoints of servers never change, so each node is a function of the original topology; closed form of the interface step; acceptance as the zero of the error sum"
 ],
 "C88": [
  "the `post_transform` hook of the bgp.domain plugin",
  "flags after the loop over nodes are characterised by an invariant over the processed nodes (route reflector seen / needed); keys `domain:AS` are injective because AS numbers have no colon"
 ],
 "C89": [
  "validate/_common.py check_for_prefix/run_prefix_checks and the filters of validate/bgp/frr.py and eos.py over parsed tables",
  "every check shown to be a filter that may report emptiness; induction over the list of checks; list-removal lemma for AS elements"
 ],
 "C90": [
  "modules/stp.py supports_stp, configure_stub_port_type, node_post_transform",
  "case analysis of the inheritance per interface lifted over the list with mapM; error counts as sums"
 ],
 "C91": [
  "data/filemaps.py and create_extra_files_mappings in providers/__init__.py",
  "induction over chains of nested dictionaries, injectivity of dotted names, loop invariant of the template loop"
 ],
 "C92": [
  "get_forwarded_ports, validate_mgmt_ip in providers/__init__.py; add_forwarded_ports in providers/clab.py",
  "invariant of the port loop; arithmetic on port numbers; subnet test equals inclusion of sets of addresses"
 ],
 "C93": [
  "padding of interfaces, start batches, transformation of interfaces attached to libvirt links with the shared list of links threaded through the loops",
  "strong induction on the padding loop and on batches; invariant: links change only in the bridge name; for bridged links the link itself is unchanged"
 ],
 "C94": [
  "provider, device and image processing of nodes represented as arbitrary dictionaries, with a fatal/error/ok result; copying of device attributes",
  "characterization of every stage by the lookups in the resulting dictionary; induction over nodes"
 ],
 "C95": [
  "Model/Loopback: loopback_interface on top of Model/Pools",
  "requests of all nodes as a suffix of a history of allocations; uniqueness from disjoint prefixes of different requests (C04), containment from C03"
 ],
 "C96": [
  "Model/AddrTypes: common_addr_parse and validators using it, parse_rdrt_value",
  "text of addresses characterized by its four octets; case analysis of values and uses"
 ],
 "C97": [
  "unnumbered interface checks, VRF instance names, strict BFD, attribute propagation, RIP timers, VRF protocol support, interface parameter support, router ID list, SRv6 locators",
  "case analysis and induction over interfaces and VRFs; arithmetic for locators"
 ],
 "C98": [
  "attribute propagation from links to interfaces and neighbors, address cleanup, interface descriptions, parent interfaces, feature checks, node AF flags, gateway copying",
  "induction over attribute lists, case analysis of values"
 ],
 "C99": [
  "creation of single-node VLAN links and access links with link indices, attribute checks and copying, cleanup",
  "induction over nodes, VLANs and links (append-only list)"
 ],
 "C100": [
  "lookup of device attributes and features, daemons, supported_on lists, final checks",
  "induction over devices and features, lookup lemmas for merged dictionaries"
 ],
 "C101": [
  "copy_datatypes, adjust_attributes, copy_merge_attributes, adjust_paths, adjust_path_list",
  "lookup of the mapped definitions, loop invariant over (namespace, attribute) pairs, induction on paths with unique keys"
 ],
 "C102": [
  "ansible.create, ansible_inventory_host, provider settings, get_host_addresses, ansible_inventory (file split)",
  "folds over assignments and group operations, invariants on unique keys"
 ],
 "C103": [
  "type_test decorator: get_value_to_check, post_validation, check_valid_values, must_be_list",
  "complete case analysis of a test against a specification of the tested value"
 ],
 "C104": [
  "log.error, warning, fatal, exit_on_error, repeat_warnings, init_log_system over arbitrary histories of calls",
  "invariants of the error log, hints cache and static hints, induction on histories"
 ],
 "C105": [
  "Model/TestEntry: the check of a test, the devices supported by a test, the list of tests; copying, checking and merging of tools",
  "case analysis on the attributes of a test; induction on tests, tools and defaults"
 ],
 "C106": [
  "Model/Plugins: search for plugins in directories with redirections, sorting, dependency check and execution; plugin files are an oracle",
  "induction on recursion depth, search path and list of plugins; C13_sorted for the order"
 ],
 "C107": [
  "Model/ReadTopo: version specifiers and selection of versioned topologies (the packaging library is a parameter), include_yaml with found and parsed files as a parameter, CLI arguments",
  "induction on files, values and settings; total preorder of versions"
 ],
 "C108": [
  "Model/Quirks: quirk reporting, Ansible collections, Junos unit-0 renaming and loopback count, ArubaCX OSPF IDs and VSX roles, VLAN 1 and reserved VLANs, EOS bundles, Linux routing module, unknown devices, NVUE passive interfaces",
  "string-splitting lemmas, counting induction, invariant over the node-by-node fold (PairRoles), filter/fold equalities"
 ],
 "C109": [
  "Model/ModHooks: trace of hook calls in a stage, module reordering (on top of the dependency sort), module removal, copying of node and VRF settings into interfaces",
  "trace membership/Nodup/Pairwise by induction over nodes and links; order via C13_sorted and closure under requirements; leaf-level merge lemmas"
 ],
 "C110": [
  "Drawn objects (clusters, nodes, networks, connections, sessions) instead of Graphviz/D2 text; AS and group clusters, links, BGP sessions and arrow directions",
  "induction over nodes, groups, members and links; invariants on clusters and placed nodes"
 ],
 "C111": [
  "Seven plugins: bonds per node, loopbacks for originated prefixes, proxy ARP and VRRP flags, shared VTEP loopbacks, checks of custom configurations, changes of the topology in multilab",
  "induction over interfaces, nodes, links and nested dictionaries"
 ],
 "C112": [
  "`Model/Validators.lean`: the validation functions for BGP/OSPF/IS-IS neighbors and prefixes, routes and pings over structured printouts (missing attributes raise exceptions, exceptions fail the test)",
  "exact characterisation of every function by case analysis and induction over printouts (first matching object), against `Spec/Validators.lean`"
 ],
 "C113": [
  "make_id, default topology name, parse_prefix, export_group_node_data, count_link_nodes, cleanup of pools and groups",
  "induction over lists of characters, items, groups and nodes"
 ],
 "C114": [
  "inventory data of a node, SSH, Docker and show commands, tool commands, run_command, probes, provider status",
  "order of dictionary updates; induction over texts with `$@`, lists and nested probes"
 ],
 "C115": [
  "commands of validation tests, extraction of JSON data, delays, selection of tests by node",
  "decomposition of texts around the first bracket, induction over sleeps, folds over devices"
 ],
 "C116": [
  "assign_link_prefix, set_fhrp_gateway, assign_interface_addresses and the loop of links.transform over the pool model of C03/C04, loopback model of C95 and IPAM model of C51; interface attributes other than addresses are left out",
  "the log of all pool requests is split into loopbacks and links; pool theorems C03/C04 give disjoint prefixes, every assigned address is in its prefix, and the duplicate check covers addresses on the same link"
 ],
 "C117": [
  "the transition system of C36/C37 (Model/LabStatus); a command started when no other command is executed",
  "sequential execution of a list of actions is shown equal to the run of the process; the state left by an interruption at step k is described by an invariant proved by induction on k; down and up are evaluated from any such state"
 ],
 "C118": [
  "eval_format/str.format with the expressions that appear in device data, interface_name, *_interface_name, svi_interface_name, subif_name, mgmt_if, container interface names, host-side names in the clab template; interface creation from C10",
  "templates are split into literal text and expressions; decimal numbers are injective and separated from non-digits; different interface types begin with different texts; the device table is checked in full by the kernel; names of created interfaces follow from C10"
 ],
 "C119": [
  "composition of node identifiers (C02), loopbacks (C115), prefix allocation (C01), link addresses (C116) and node interfaces (C10) in the order of the transformation (plan); VLAN identifiers and VNIs (C20); VRF identifiers and route distinguishers (C21)",
  "relation between the states of both transformations: identifier sets and pools of the larger lab contain those of the smaller one plus a set of reserved values that the smaller lab never used; preserved by every allocation step, by induction over nodes and links"
 ],
 "C120": [
  "composition: plan (C119) followed by build_bgp_sessions (C23, C24); BGP data is related to the results of address assignment by LabBgp (attributes that are not related to addresses are arbitrary)",
  "the list of (name, address) pairs of sessions is a sublist of the list of (node, address) pairs in the lab: block structure of interface creation, one interface per node and link, sublist arguments for IBGP and EBGP lists; uniqueness from C116"
 ],
 "C121": [
  "composition of plan (C119) and BGP sessions (C23, C24): neighbor entries carry BGP attributes of the remote interface (LabBgpAttr)",
  "mutual neighbor entries from the block structure of interface creation; the sessions of both nodes are described with the same link-AS relation, with roles swapped"
 ],
 "C122": [
  "composition of loopback addressing (C95), address pools (C03, C04) and router_id (C31)",
  "invariant of router_id runs: every identifier is the loopback address or was handed out by the router_id pool for the node identifier; a pool that gets only indexed requests returns the subnet with that index (invariant of the generator cache)"
 ],
 "C123": [
  "fs_cleanup, down_cleanup, tool_cleanup and the cleanup part of run over file systems (functions from paths to kinds); failures and interruptions as parameters of every removal",
  "relation OnlyRemoved is reflexive and transitive, induction over cleanup lists; the snapshot is the last element of the list"
 ],
 "C124": [
  "the iteration order (or the arbitrary choice) is a parameter of the models of the VRF, BGP, VLAN and plugin functions",
  "two runs with different orders are compared: commuting updates and Perm.foldl_eq for cluster IDs; dictionaries with the same content and an append lemma for the VRF loop; singleton sets for VLAN choices; uniqueness of a linear order for configurations (from C54)"
 ],
 "C125": [
  "the path of protocol attributes from a link to interfaces: interface_data, copy_node_data_into_interfaces, external, passive, network_type, remove_unaddressed_intf; interfaces are not in VRFs",
  "composition of C98, C109 and the interface loop of C56; the neighbor list of an interface contains the other nodes, so it is never a true stub"
 ],
 "C126": [
  "`vrfIdTransform` followed by `vrfRtTransform` (Model/Vrf); accepting routes = a common route target (Spec/Vpn)",
  "outcome lemma for both passes (RD of the VPN or meaning of the written list), uniqueness of automatic RDs (C21)"
 ],
 "C127": [
  "`vxlanPost` (Model/Vtep)",
  "flooding list expressed in terms of the resulting nodes, then symmetry of that relation"
 ],
 "C128": [
  "`vlanTransform` (Model/Vlan), `createSvi` (Model/Svi), `mapTrunks` (Model/VlanTrunk), `vlanLink` (Model/VlanLinks)",
  "composition: identifiers of node copies equal global identifiers (C20), interface identifiers equal node VLAN identifiers (C64), one access VLAN per link (C62)"
 ],
 "C129": [
  "`Model/NodeId`, `Model/Gateway`, `Model/Ipam` (existing); `Spec/AutoAddr` says when a prefix has room for the hosts and the gateway",
  "composition of C02_node_ids, C29_gateway_id_not_node_id, C09_decision_table, C09_automatic_choice_succeeds and C51_duplicate_check_exact"
 ],
 "C130": [
  "`Model/LabHost`: bridges, kernel modules, container images, Vagrant boxes, libvirt management network; the model lists all intermediate states of the host",
  "invariant over all states of the loops (only lab bridges change), induction over bridges with an idempotent effect, induction over nodes and netlab modules"
 ],
 "C131": [
  "`process_quirks` for all devices: errors reported by device-specific checks, and changes of Cumulus NVUE and EOS nodes",
  "per-device equivalences between the computed number of errors and constructors of the specification predicate; induction over processed nodes for shared VTEPs"
 ],
 "C132": [
  "add_host_static_routes with the DHCP scan (Model/HostRoutes), composed with static route resolution (Model/StaticRoutes)",
  "case analysis of the scan by number of DHCP client interfaces, induction over nodes; characterisation of the gateway loop by address family, independence of the gateway cache; decided witnesses for defects"
 ],
 "C133": [
  "tool data, runtime, parameters, commands, the topology changes made between tools, message, SSH address; instance selection, status rows, Vagrant and Docker printouts",
  "dictionary merge lemmas; invariant: the parts of topology used by tools are not changed by earlier tools; induction over tools and printouts"
 ],
 "C134": [
  "XML template as tokens, text and address substitutions, node bindings; pre_transform of links; post_start_lab; capture interface and domiflist printout",
  "symbolic evaluation of the substitutions with divisibility arithmetic, induction over nodes, links and printouts"
 ],
 "C135": [
  "find_extra_template, create_extra_files composed with the mapping code of C91, find_config_file and clab_config_adjust (`Model/ExtraFiles`)",
  "search as find? over candidates, replacement lemma for the folder prefix, induction over mappings; case analysis for archives"
 ],
 "C136": [
  "normalization of LAG members, creation of member links and MLAG peer links, MLAG pairs and MLAG groups; parsing of members and device features are parameters",
  "invariant over the loop over links (positions of original links, children of every LAG, used identifiers)"
 ],
 "C137": [
  "check_protocol_support, cleanup_unicast_ip and node_post_transform over the interfaces of a node, using the model of cleanup_intf_protocol_parameters from C29 (`Model/GatewayNode`)",
  "case analysis of the three outcomes, membership in the list of active protocols by induction over interfaces, C29_protocol_parameters for the merged parameters"
 ],
 "C138": [
  "composition of the models of C20 (VLAN identifiers and VNIs), populate_node_vlan/create_node_vlan, and C50/C127 (tunnel endpoints and flooding lists) (`Model/VxlanSegments`)",
  "the VNI of a VLAN in a node is the VNI of the definition that decides about it (no errors: a node cannot change it); uniqueness of automatic VNIs (C20) and the full mesh (C127)"
 ],
 "C139": [
  "the arguments of netlab restart as text, the filter used for netlab down, and acceptance by the argument parser of netlab down (`Model/LabCommands`)",
  "induction over the arguments"
 ],
 "C140": [
  "run, copy_topology, cleanup_force and cleanup_working_directory over a file system given as a list of paths; commands are functions of the file system (`Model/LabCommands`)",
  "case analysis of outcomes; lemmas about removal of a directory tree"
 ],
 "C141": [
  "run, get_tarball_file and fs_cleanup over a file system given as a list of paths; the playbook is a function of the file system (`Model/LabCommands`)",
  "case analysis of outcomes; lemmas about removal of a directory tree"
 ],
 "C142": [
  "`check_attribute_direction` as a fold over all attributes of all neighbors with the list of reported errors as its state; device features are a parameter",
  "invariant of the fold: reported errors are unique and the kind of the error agrees with the device features; induction over directions and attributes"
 ],
 "C143": [
  "`short_ifname`, `nodes_items`, `links_items`; nodes and links are structures with the attributes used by the tool, the graph is a dictionary of nodes and a list of pairs of interfaces",
  "induction over links; names of bridge nodes are unique because link indexes are unique and node names do not start with a parenthesis"
 ],
 "C144": [
  "`node_post_link_transform` of the VRF module as a fold over interfaces followed by the merge of global VRF data",
  "loop invariant describing the VRFs of the node and the reported VRFs; leaf semantics of dictionary merge (C17)"
 ],
 "C145": [
  "Model/Show: data displayed by netlab show devices, images, module-support and modules in table, text and YAML formats, from lists of devices and modules with arbitrary features",
  "Membership characterisations of sorted filtered lists; the YAML dictionary by induction on the fold that sets keys; columns of the feature table by induction on nested dictionaries"
 ],
 "C146": [
  "Model/TestPlugin: plugin lookup on the search path, cache of (also negative) results, reported errors, sequences of requests with changing files; test selection; Model/Validation: selection of the test action",
  "Invariant over sequences of requests: the state of a device is determined by its first request; case analysis for the action and test selection"
 ],
 "C147": [
  "parsing of output specifications, the loop of `netlab create`, formats of the YAML output, files of external tools",
  "lemmas about splitting and joining texts; induction over output modules, formats and tool entries"
 ],
 "C148": [
  "copy and merge requests between devices",
  "list of outermost requests, requests do not overlap, invariant over processed requests"
 ],
 "C149": [
  "`inspectValue`, `yamlWrite` (cli/inspect.py:50-57, outputs/yaml.py:22-71) and `attrSubset` (cli/show_commands/attributes.py:32-58)",
  "round trip of the output specification (C147) and case analysis; leaves of merged dictionaries"
 ],
 "C150": [
  "`rnDefaults`, `rnPath`, `rnAspath`, `rnObjects`, `rnData` (modules/routing.py:25-36, 84-132, 409-449)",
  "lookups of changed dictionaries, induction on lists of entries and objects"
 ],
 "C151": [
  "`vmName`, `containerName`, `boxImage`, `outputLinks`, `externalLab` (providers/libvirt.py:434-435, clab.py:250-252, __init__.py:88-94, 255-260, external.py:13-16)",
  "injectivity of names split at the first separator; case analysis"
 ],
 "C152": [
  "`instSudo`, `instPip`, `instCheck`, `instScripts`, `instRun` (cli/install.py:67-201)",
  "induction on the list of scripts, case analysis of flags"
 ],
 "C153": [
  "Answers as a list of texts; the status command as a function from arguments, status file, current directory, answers and snapshots to the list of actions; the commands executed by clab cleanup from the printout of docker ps.",
  "Induction over the answers; an explicit list of spellings of yes and no in the specification, proved equal to the lower-case comparison; case analysis of the options; splitting of lines is the inverse of joining them."
 ],
 "C154": [
  "The build process as a sequence of steps with an oracle for the outcome of each step and for the things left behind by failing steps; the commands that create the disk as lists of words; the version check character by character.",
  "Induction over the list of steps (executed steps are a prefix, the result is the first failure), case analysis of outcomes, splitting of commands into words is the inverse of joining words."
 ],
 "C155": [
  "`check_vlan_duplicate_address` and `check_duplicate_address` on the neighbor lists built by the model of VLAN interfaces (module VlanDup)",
  "A loop invariant of the duplicate check (no error iff addresses are distinct and unused) composed with the specification of VLAN neighbor lists (C65)"
 ],
 "C156": [
  "Marking of multi-provider links, selection of link types and bridge names, the list of warnings with the cache of nodes, and the removal of temporary links",
  "Induction over links with the cache of reported nodes; sorted lists of the same names are equal; case analysis of link types"
 ],
 "C157": [
  "The three functions changing and testing global flags, and arbitrary sequences of calls",
  "Invariant over the calls after the last request; case analysis of arguments"
 ],
 "C158": [
  "VLAN node_cleanup and get_interface_description, composed with the model of VLAN interfaces (C64)",
  "pointwise relation between original and final interfaces, from the invariant of the interface creation loop"
 ],
 "C159": [
  "set_dhcp_server_pools and the loop over nodes, composed with build_topology_dhcp_pools (C46)",
  "induction over nodes with the invariant that the pools are empty without errors or complete; C46_pools"
 ],
 "C160": [
  "UniqueKeyLoader.construct_mapping over a tree of YAML nodes",
  "mutual structural induction over nested nodes; the list of seen keys as the invariant"
 ],
 "C161": [
  "create in the devices output module, composed with adjust_inventory_host (C114)",
  "induction over nodes with a frame lemma for other keys; C114_host for the settings"
 ],
 "C162": [
  "register_static_transit_vni, composed with the models of VLAN VNIs (C20) and transit VNIs (C22) in the order of the transformation",
  "induction over VRFs for the registered set; freshness of automatic VNIs from the C20 invariants; C22 for transit values"
 ]
}