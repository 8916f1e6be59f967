{"id": "C01", "title": "Auto-assigned identifiers are fresh and bounded", "statement": "Every identifier handed out by the shared ID allocator (node, VLAN, VNI, VRF, LAG, gateway IDs) differs from every statically registered identifier and from every identifier handed out earlier; if the counter starts within its limit the identifier stays within [start,max]; the allocator stops with a fatal error exactly when no free identifier is left between the counter and the maximum.", "quantifier": "all sets of static identifiers, all start/max settings, all finite histories of register/allocate requests", "why_tests_cant": "collisions only show up for particular combinations of static IDs and request orders; the space of histories is infinite", "anchors": [{"file": "netsim/modules/_dataplane.py", "symbols": ["get_next_id", "set_id_counter", "extend_id_set", "create_id_set", "build_id_set"]}]}
{"id": "C02", "title": "Node identifiers are unique and within range", "statement": "If the transformation of the node list completes without an error, every node has an integer id, all node ids are pairwise distinct, they are between 1 and the maximum node ID, and every user-specified id is kept.", "quantifier": "all lists of nodes with or without static ids, all sets of reserved ids", "why_tests_cant": "duplicates depend on how static ids interleave with automatic ones", "anchors": [{"file": "netsim/augment/nodes.py", "symbols": ["transform", "reserve_id"]}, {"file": "netsim/modules/_dataplane.py", "symbols": ["get_next_id"]}]}
{"id": "C03", "title": "Sequentially allocated prefixes do not overlap", "statement": "The prefixes taken in sequence from one address pool all have the configured length, lie inside the pool, and are pairwise disjoint; once the pool is exhausted the request fails and no prefix is handed out twice.", "quantifier": "all pool sizes, subnet lengths (IPv4 and IPv6) and request histories", "why_tests_cant": "a test fixes one topology; the claim ranges over every topology and every order of requests", "anchors": [{"file": "netsim/augment/addressing.py", "symbols": ["create_pool_generators", "get_pool_prefix", "get"]}]}
{"id": "C04", "title": "Prefixes requested by index are stable and disjoint from all others", "statement": "Two requests for the same index return the same prefix whatever happened in between; requests for different indices return disjoint prefixes; a prefix handed out by index is never handed out in sequence and vice versa.", "quantifier": "all interleavings of by-index and sequential requests to a pool", "why_tests_cant": "a test fixes one topology; the claim ranges over every topology and every order of requests", "anchors": [{"file": "netsim/augment/addressing.py", "symbols": ["get_nth_subnet", "get_pool_prefix"]}]}
{"id": "C05", "title": "Address-pool selection uses the first usable pool", "statement": "A prefix request with a list of pool names is served by the first pool in the list that exists; if none exists the request is reported as an error; no other pool is touched.", "quantifier": "all pool lists and pool dictionaries", "why_tests_cant": "depends on arbitrary combinations of defined pools", "anchors": [{"file": "netsim/augment/addressing.py", "symbols": ["get_pool", "get", "setup"]}]}
{"id": "C06", "title": "ID-based interface addressing is collision-free", "statement": "With ID-based allocation, every node gets the host address equal to its node ID in the link prefix, two different nodes get different addresses, no address is the subnet or the (IPv4) broadcast address and every assigned address lies in the link prefix; otherwise an error is reported for that node.", "quantifier": "all prefixes, node id sets and interface lists", "why_tests_cant": "address collisions and boundary overflow occur only for particular id/prefix-size pairs", "anchors": [{"file": "netsim/augment/links.py", "symbols": ["IPAM_id_based", "set_interface_address", "check_interface_host_bits"]}, {"file": "netsim/augment/addressing.py", "symbols": ["get_nth_ip_from_prefix"]}]}
{"id": "C07", "title": "Sequential interface addressing is collision-free and skips the gateway", "statement": "With sequential allocation, interfaces without a static address receive pairwise different host addresses in list order, never the first-hop gateway address, never outside of the prefix; exhaustion is reported as an error.", "quantifier": "all prefixes, interface lists and gateway positions", "why_tests_cant": "a test fixes one topology; the claim ranges over every topology and every order of requests", "anchors": [{"file": "netsim/augment/links.py", "symbols": ["IPAM_sequential", "set_interface_address"]}]}
{"id": "C08", "title": "Point-to-point addressing gives the two ends different addresses", "statement": "On a two-node link with a /31 or /127 (or shorter) prefix the two nodes receive the first two usable addresses, they differ and are in the prefix; the order is by node name.", "quantifier": "all p2p prefixes and interface pairs", "why_tests_cant": "a test fixes one topology; the claim ranges over every topology and every order of requests", "anchors": [{"file": "netsim/augment/links.py", "symbols": ["IPAM_p2p", "get_prefix_IPAM_policy"]}]}
{"id": "C09", "title": "Choice of addressing policy", "statement": "The addressing policy chosen for a prefix is: the explicitly requested allocation; unnumbered for unnumbered prefixes; loopback for one-address prefixes; point-to-point for two-node links (and one-node links with /31); id-based when every node id fits into the prefix; sequential otherwise, and a policy is only chosen if the prefix can hold the nodes.", "quantifier": "all links and prefixes", "why_tests_cant": "a decision table over unbounded sizes", "anchors": [{"file": "netsim/augment/links.py", "symbols": ["get_prefix_IPAM_policy"]}]}
{"id": "C10", "title": "Interface indices are unique on a node", "statement": "Every interface of a node gets an interface index that differs from every earlier interface of the node unless that very index was specified by the user (a user-specified index is used as it is, even when another interface already has it); automatic physical indices are the lowest free ones starting at the device-specific value, and automatic indices of virtual interfaces (loopback, tunnel, SVI, LAG, ...) never coincide with automatic indices of physical interfaces.", "quantifier": "all interface lists with and without static indices", "why_tests_cant": "a test fixes one topology; the claim ranges over every topology and every order of requests", "anchors": [{"file": "netsim/augment/links.py", "symbols": ["get_unique_ifindex", "add_node_interface", "create_regular_interface", "create_virtual_interface"]}]}
{"id": "C11", "title": "Link indices are unique and link lookups by index are well defined", "statement": "After the links are numbered, every link has an index, indices are pairwise distinct, and links added later get an index larger than all existing ones.", "quantifier": "all link lists including partially numbered lists", "why_tests_cant": "a test fixes one topology; the claim ranges over every topology and every order of requests", "anchors": [{"file": "netsim/augment/links.py", "symbols": ["set_linkindex", "get_next_linkindex"]}]}
{"id": "C12", "title": "Neighbor lists are complete and symmetric", "statement": "After a link is transformed, the neighbor list of an interface contains exactly the other interfaces attached to the same link (in link order), so node B is a neighbor on an interface of A iff A is a neighbor on the matching interface of B.", "quantifier": "all links with any number of nodes, including parallel interfaces of the same node", "why_tests_cant": "symmetry is a relation between pairs of nodes in an arbitrary topology", "anchors": [{"file": "netsim/augment/links.py", "symbols": ["create_node_interfaces", "set_interface_name"]}]}
{"id": "C13", "title": "Dependency sorting", "statement": "Sorting modules or plugins by dependency returns a permutation of the input in which every object comes after all objects it depends on, and fails exactly when the dependencies between the listed objects contain a loop (lists with at least two objects).", "quantifier": "all lists of objects and all dependency relations", "why_tests_cant": "there are infinitely many dependency graphs", "anchors": [{"file": "netsim/utils/sort.py", "symbols": ["dependency"]}, {"file": "netsim/modules/__init__.py", "symbols": ["reorder_node_modules", "sort_module_list"]}, {"file": "netsim/augment/plugin.py", "symbols": ["sort_plugins"]}]}
{"id": "C14", "title": "Recursive groups are rejected and membership expansion terminates", "statement": "Topologies in which a group contains itself directly or through other groups are rejected, and no others; the expansion of a group is aborted exactly when there are one hundred or more levels of groups below it, and otherwise returns exactly the nodes reachable through the group hierarchy, a node being repeated only if it is reached in more than one way.", "quantifier": "all group hierarchies", "why_tests_cant": "cycles of any length", "anchors": [{"file": "netsim/augment/groups.py", "symbols": ["check_recursive_groups", "group_members", "reverse_topsort"]}]}
{"id": "C15", "title": "Group data never overrides node data and inner groups win", "statement": "An attribute set on a node is never changed by a group; a node attribute missing on the node is taken from the groups it belongs to; with nested groups data from the child group wins over the parent group.", "quantifier": "all node attributes and group hierarchies", "why_tests_cant": "a test fixes one topology; the claim ranges over every topology and every order of requests", "anchors": [{"file": "netsim/augment/groups.py", "symbols": ["copy_group_node_data", "copy_group_device_module", "reverse_topsort"]}]}
{"id": "C16", "title": "Custom configuration templates: ordering and removal", "statement": "The configuration template list of a node is the list of the templates of its groups (outer groups first, the special group `all` included), followed by the templates of the node itself, from which a template prefixed with a minus sign removes all earlier entries with that name, and a bare minus sign removes all earlier entries; the order of remaining templates is kept.", "quantifier": "all template lists", "why_tests_cant": "a test fixes one topology; the claim ranges over every topology and every order of requests", "anchors": [{"file": "netsim/augment/groups.py", "symbols": ["node_config_templates"]}]}
{"id": "C17", "title": "Merging of nested settings", "statement": "Merging two nested settings keeps every key of both, prefers the right operand for scalar conflicts and merges recursively for dictionary conflicts; merging with an empty dictionary and merging a value with itself changes nothing; merging is associative as long as no setting is a dictionary in one operand and a scalar in another one (and not associative otherwise).", "quantifier": "all nested dictionaries", "why_tests_cant": "unbounded nesting", "anchors": [{"file": "netsim/utils/read.py", "symbols": ["include_defaults"]}, {"file": "netsim/augment/topology.py", "symbols": ["adjust_global_parameters"]}, {"file": "netsim/augment/devices.py", "symbols": ["process_child_device"]}]}
{"id": "C18", "title": "Module parameters: most specific scope wins", "statement": "The value of a module parameter on a node is the node value if it is set, otherwise the group value, then the topology value, then the device default, then the module default; nested values are merged key by key; parameters flagged as non-propagating are never copied.", "quantifier": "all parameter names, scopes and values", "why_tests_cant": "a test fixes one topology; the claim ranges over every topology and every order of requests", "anchors": [{"file": "netsim/modules/__init__.py", "symbols": ["merge_node_module_params", "merge_global_module_params", "adjust_global_modules"]}]}
{"id": "C19", "title": "Module dependency checks", "statement": "If module validation succeeds, every module used in the topology or on a node is known and has all modules it requires enabled in the same scope; and all missing dependencies are reported.", "quantifier": "all module lists and requirement tables", "why_tests_cant": "a test fixes one topology; the claim ranges over every topology and every order of requests", "anchors": [{"file": "netsim/modules/__init__.py", "symbols": ["check_module_dependencies", "check_supported_node_devices"]}]}
{"id": "C20", "title": "VLAN identifiers and VNIs are unique and in range", "statement": "If VLAN processing completes without an error: every VLAN has an ID; static IDs and static VNIs are kept; a node VLAN that is also a global VLAN has the global ID; an automatic VLAN ID is never used by another VLAN, is at least the start value and at most 4094 (when the start value is at most 4094); every VLAN selected for VXLAN gets a VNI unless it is disabled; an automatic VNI is never used by another VLAN and is the start VNI plus the VLAN ID or a value handed out by the VNI counter.", "quantifier": "all global and node VLAN dictionaries with static and automatic values, all start values, all VXLAN VLAN lists", "why_tests_cant": "a test fixes one topology; the claim ranges over every topology and every order of requests", "anchors": [{"file": "netsim/modules/vlan.py", "symbols": ["populate_vlan_id_set", "validate_vlan_attributes"]}, {"file": "netsim/modules/vxlan.py", "symbols": ["assign_vni"]}]}
{"id": "C21", "title": "VRF identifiers and route distinguishers are unique", "statement": "Automatically assigned VRF ids and RDs never repeat, and in topologies with global VRFs they never equal an explicitly configured one; explicitly configured values are kept (unless a node VRF lacking an id or an RD is a copy of a global VRF: such a VRF gets both values of the global VRF) and integer RDs are prefixed with the AS number; automatic ids are within 1..4095 and automatic RDs are AS:number; route targets default to the RD and VRF names used as route targets are replaced by the RD of that VRF.", "quantifier": "all global and node VRF dictionaries with static and automatic values, including VRFs used only by VLANs", "why_tests_cant": "a test fixes one topology; the claim ranges over every topology and every order of requests", "anchors": [{"file": "netsim/modules/vrf.py", "symbols": ["set_vrf_ids", "get_next_vrf_id", "get_rd_as_number", "parse_rdrt_value"]}]}
{"id": "C22", "title": "EVPN transit VNIs do not clash", "statement": "Every VRF with a symmetric-IRB transit VNI gets a VNI different from the transit VNI of every other VRF (unless it explicitly refers to that VRF), with a single exception: the first automatic VNI may be equal to a static VNI configured as start_transit_vni.", "quantifier": "all VRF dictionaries with automatic, static and by-reference transit VNIs", "why_tests_cant": "the collision depends on the order of VRFs", "anchors": [{"file": "netsim/modules/evpn.py", "symbols": ["vrf_transit_vni", "get_next_vni", "register_static_transit_vni"]}]}
{"id": "C23", "title": "IBGP sessions: full mesh without route reflectors, hub-and-spoke with them", "statement": "Within an AS without route reflectors every router has exactly one IBGP session with every other router it can reach (the other router has a loopback, or is a daemon with an interface, with an address in an address family enabled for IBGP); with route reflectors a session exists between two such routers iff at least one of them is a route reflector; sessions between routers that reach each other are symmetric and a router never peers with itself.", "quantifier": "all sets of routers, AS numbers and RR flags", "why_tests_cant": "a test fixes one topology; the claim ranges over every topology and every order of requests", "anchors": [{"file": "netsim/modules/bgp.py", "symbols": ["build_ibgp_sessions"]}]}
{"id": "C24", "title": "EBGP sessions exist exactly between neighbors in different AS", "statement": "A router has an EBGP (or local-AS IBGP) session over an interface with a directly connected router iff both run BGP, BGP is not disabled on the router's own interface or VRF, both interfaces have an address, the AS numbers used on the link make it such a session, and the neighbor has an address in an address family enabled for that session type; with default session settings and BGP enabled on both interfaces, the session exists on one end iff it exists on the other end.", "quantifier": "all links, AS numbers, local-AS settings and address families", "why_tests_cant": "a test fixes one topology; the claim ranges over every topology and every order of requests", "anchors": [{"file": "netsim/modules/bgp.py", "symbols": ["build_ebgp_sessions", "bgp_neighbor"]}]}
{"id": "C25", "title": "Merging global and node routing policies", "statement": "When a routing policy (or prefix list, AS-path or community list) is defined globally and on the node, the node keeps each of its own entries and gets exactly the global entries whose sequence numbers it does not use; whenever something is added, the result is ordered by sequence number.", "quantifier": "all policies", "why_tests_cant": "a test fixes one topology; the claim ranges over every topology and every order of requests", "anchors": [{"file": "netsim/modules/routing.py", "symbols": ["import_routing_object", "normalize_routing_entry"]}]}
{"id": "C26", "title": "Expanded prefix filters never match more than requested", "statement": "Expanding a prefix list into per-address-family lists keeps entries in order, puts each entry into exactly the address families it has a prefix for, uses the min/max length specified for that address family, rejects min/max lengths outside of the valid range, and produces an explicit deny-all entry for an address family with no entries.", "quantifier": "all prefix lists", "why_tests_cant": "a test fixes one topology; the claim ranges over every topology and every order of requests", "anchors": [{"file": "netsim/modules/routing.py", "symbols": ["expand_prefix_list", "expand_prefix_entry", "adjust_pfx_min_max", "create_empty_prefix_list"]}]}
{"id": "C27", "title": "AS-path and community list numbering", "statement": "Numbered AS-path lists get pairwise distinct numbers; a community list is of type expanded iff at least one entry is a regular expression.", "quantifier": "all list dictionaries", "why_tests_cant": "a test fixes one topology; the claim ranges over every topology and every order of requests", "anchors": [{"file": "netsim/modules/routing.py", "symbols": ["number_aspath_acl", "expand_community_list"]}]}
{"id": "C28", "title": "Static-route includes terminate and are complete", "statement": "Expansion of included static-route lists always terminates: include loops and references to lists that do not exist are reported; on success no include remains and the result consists of exactly the routes of all (directly or indirectly) included lists, with the next hop specified next to the include merged into them; lists nested at most 19 levels deep are accepted.", "quantifier": "all include graphs", "why_tests_cant": "cyclic include graphs of any size", "anchors": [{"file": "netsim/modules/routing.py", "symbols": ["include_global_static_routes", "process_static_route_includes"]}]}
{"id": "C29", "title": "First-hop gateway IDs and propagation", "statement": "Gateway settings on a link are enabled iff requested on the link or on an interface, a link with the gateway turned off has no gateway data, and node/global settings are merged with the link settings winning; a gateway host address is within the subnet, and it is the subnet or broadcast address exactly for gateway identifiers equal to the subnet size minus one or minus the subnet size.", "quantifier": "all links and gateway settings", "why_tests_cant": "a test fixes one topology; the claim ranges over every topology and every order of requests", "anchors": [{"file": "netsim/modules/gateway.py", "symbols": ["FHRP.link_pre_link_transform", "FHRP.module_init"]}]}
{"id": "C30", "title": "Passive-interface decision", "statement": "A routing protocol runs in passive mode on an interface iff it was explicitly requested or the link is a stub/external/passive-role link, or a stub-role link without other routers; an explicit setting always wins.", "quantifier": "all interfaces, link roles and neighbor lists", "why_tests_cant": "a test fixes one topology; the claim ranges over every topology and every order of requests", "anchors": [{"file": "netsim/modules/_routing.py", "symbols": ["passive", "is_true_stub", "external"]}]}
{"id": "C31", "title": "Router-ID precedence", "statement": "The router ID used by a routing protocol is the protocol-specific one if set, otherwise the node-wide one, otherwise the IPv4 loopback address, otherwise an address allocated from the router-ID pool; two nodes using the router-ID pool get different router IDs.", "quantifier": "all nodes and pools", "why_tests_cant": "a test fixes one topology; the claim ranges over every topology and every order of requests", "anchors": [{"file": "netsim/modules/_routing.py", "symbols": ["router_id", "get_router_id_prefix"]}]}
{"id": "C32", "title": "AS-dot parsing", "statement": "An AS number in asdot notation x.y is accepted iff both parts are 16-bit values and the result is between 1 and 2^32-1; the value is x*65536+y and two different asdot strings in canonical form never map to the same AS number.", "quantifier": "all strings", "why_tests_cant": "infinite input domain", "anchors": [{"file": "netsim/data/types.py", "symbols": ["transform_asdot", "asdot_parsing", "must_be_asn"]}]}
{"id": "C33", "title": "Integer validation enforces the declared range", "statement": "An integer given for an integer attribute is accepted iff it is within the declared minimum and maximum, and is not changed; a string is accepted iff it is a decimal integer and is stored as that integer (the range is not applied to strings); no other value is accepted.", "quantifier": "all values and ranges", "why_tests_cant": "infinite input domain", "anchors": [{"file": "netsim/data/types.py", "symbols": ["must_be_int", "check_int_type"]}]}
{"id": "C34", "title": "Unknown attributes are rejected", "statement": "Validation of an object succeeds only if every attribute is a known attribute of the object, an attribute of a module enabled for the object, or an internal attribute.", "quantifier": "all objects and attribute tables", "why_tests_cant": "a test fixes one topology; the claim ranges over every topology and every order of requests", "anchors": [{"file": "netsim/data/validate.py", "symbols": ["validate_attributes", "get_valid_attributes"]}]}
{"id": "C35", "title": "Node sets on the command line", "statement": "Parsing a node-set specification returns exactly the nodes matched by name, group or pattern, reports every element which matches nothing, and lists each node once unless one of the named groups reaches a node in two ways.", "quantifier": "all node-set strings and topologies", "why_tests_cant": "a test fixes one topology; the claim ranges over every topology and every order of requests", "anchors": [{"file": "netsim/cli/_nodeset.py", "symbols": ["parse_nodeset", "get_nodeset"]}]}
{"id": "C36", "title": "A lab instance is owned by at most one directory", "statement": "Over every interleaving of the steps of netlab up, create, initial and down commands in any directories, and crashes of any of them outside of the window in which the status file is empty: the directory recorded for a lab instance does not change, and its workloads are started from one directory only, until the instance is removed from the status file. When commands working on the same instance do not overlap (and netlab down does not read the file while it is being rewritten), an instance is removed only by a command executed in the directory which owns it.", "quantifier": "all histories of concurrent commands, all crash points", "why_tests_cant": "interleavings and crash points are unbounded", "anchors": [{"file": "netsim/cli/up.py", "symbols": ["run_up", "check_existing_lab", "check_lab_instance"]}, {"file": "netsim/cli/__init__.py", "symbols": ["lab_status_update"]}, {"file": "netsim/utils/status.py", "symbols": ["change_status", "remove_lab_status"]}]}
{"id": "C37", "title": "Directory lock protects a running lab", "statement": "Over all histories of netlab commands in any directories, with crashes anywhere, in which commands executed in the same directory do not overlap and the user does not override the protection (--unlock, --force, aborting the restart of an external lab): a directory with a started lab is locked, and lab files in a directory with a started lab are not overwritten.", "quantifier": "all histories of create/up/down commands", "why_tests_cant": "unbounded histories", "anchors": [{"file": "netsim/utils/status.py", "symbols": ["lock_directory", "unlock_directory", "is_directory_locked"]}, {"file": "netsim/cli/create.py", "symbols": ["run"]}, {"file": "netsim/cli/down.py", "symbols": ["run"]}]}
{"id": "C38", "title": "Validation retry loop and exit code", "statement": "netlab validate tries a test on every node until the node passes, fails unrecoverably or the wait time expires, and terminates whatever devices return. A test fails iff at least one node failed, and passes iff no node failed and some node passed. The exit code is 1 iff some test failed that is not a warning or is mandatory, 3 iff other tests failed, 0 iff no test failed. Tests are executed in sequence up to the first mandatory failure.", "quantifier": "all tests, nodes, response sequences and clocks", "why_tests_cant": "device responses over time are unbounded", "anchors": [{"file": "netsim/cli/validate.py", "symbols": ["execute_validation_test", "execute_node_validation", "run"]}]}
{"id": "C39", "title": "Component expansion", "statement": "When the expansion of components ends without errors, the topology has exactly its own regular nodes plus one node, named after the path of includes, for every regular node of every instance of a component (nested to any depth), node names are unique, the original links are kept and followed by one copy of every link of every instance with increasing link indices, every instance has a group with its nodes and nested groups, and links of components that use regular nodes of the component have both ends in the topology. The expansion terminates for every nesting of components that is not recursive.", "quantifier": "all topologies, component hierarchies of any depth, all node names", "why_tests_cant": "a test fixes one topology; the claim ranges over every topology and every order of requests", "anchors": [{"file": "netsim/augment/components.py", "symbols": ["expand_components", "include_nodes", "include_links"]}]}
{"id": "C40", "title": "Leaf-and-spine fabric generation", "statement": "When node name patterns give different names to all leafs and spines, the fabric plugin creates the requested number of leafs and spines, exactly one link between each leaf and each spine and no other links. Leafs and spines are members of their (different) groups, every parameter of a role is either a node parameter (strings with formatting expressions) or a group parameter, and the topology keeps its own nodes, links, node attributes and group members.", "quantifier": "all fabric sizes, node name patterns, role parameters and topologies", "why_tests_cant": "unbounded sizes", "anchors": [{"file": "netsim/extra/fabric/plugin.py", "symbols": ["generate_fabric", "topology_expand"]}]}
{"id": "C41", "title": "Node cloning preserves connectivity", "statement": "Cloning a node with valid parameters replaces it with count clones (with distinct names when the name pattern distinguishes identifiers) that keep its attributes, replaces the node with its clones in every group, and replaces every link of the node, in the topology, VLANs and VRFs, with one link per clone that keeps link attributes and the other ends; all other nodes and links stay, and no link refers to the original node.", "quantifier": "all topologies and clone counts", "why_tests_cant": "a test fixes one topology; the claim ranges over every topology and every order of requests", "anchors": [{"file": "netsim/extra/node.clone/plugin.py", "symbols": ["clone_node", "clone_link", "process_links"]}]}
{"id": "C42", "title": "MLAG peers get complementary addresses", "statement": "When no node has more than one MLAG peer, two nodes are MLAG peers exactly when a peer link connects them. With a pool of at least two addresses, peers with different node identifiers get different addresses and each lists the address of the other as its peer address; without a pool, the peer address (and the backup address) is the address of the other node, or an error is reported. Unless the user sets it, both peers have the same virtual MAC address, and nodes in different peer groups (numbered below 65536) have different ones.", "quantifier": "all sets of peer links, node identifiers, pools, addresses and peer group numbers", "why_tests_cant": "a test fixes one topology; the claim ranges over every topology and every order of requests", "anchors": [{"file": "netsim/modules/lag.py", "symbols": ["populate_mlag_peer", "normalized_members"]}]}
{"id": "C43", "title": "Device inheritance", "statement": "Building device settings from parent devices terminates for every device table; without inheritance loops a setting of a device comes from the device itself or from its closest ancestor that has it, null values remove an inherited setting, and the template flag is not inherited.", "quantifier": "all device tables", "why_tests_cant": "inheritance chains of any length", "anchors": [{"file": "netsim/augment/devices.py", "symbols": ["process_child_device", "process_device_inheritance"]}]}
{"id": "C44", "title": "File search order", "statement": "Searching for a file over a list of directories returns the first directory containing it, and the search path contains each directory once in the order of first appearance.", "quantifier": "all directory lists and file systems", "why_tests_cant": "a test fixes one topology; the claim ranges over every topology and every order of requests", "anchors": [{"file": "netsim/utils/files.py", "symbols": ["find_file", "absolute_search_path", "get_search_path"]}]}
{"id": "C45", "title": "BFD on routing protocol interfaces", "statement": "After BFD processing of a node with a protocol-level BFD setting, BFD is enabled for the protocol on an interface running it iff BFD is not disabled on the interface and either the protocol setting of the interface enables it, or the interface has no such setting and the node has the BFD module and a protocol setting enabling BFD (per address family for multi-protocol routing protocols). Interfaces not running the protocol are unchanged.", "quantifier": "all nodes and interfaces", "why_tests_cant": "a test fixes one topology; the claim ranges over every topology and every order of requests", "anchors": [{"file": "netsim/modules/bfd.py", "symbols": ["bfd_link_state", "multiprotocol_bfd_link_state"]}]}
{"id": "C46", "title": "DHCP pools exclude statically assigned addresses", "statement": "There is exactly one DHCP pool for every VLAN or non-VLAN link with DHCP clients, with the prefix of its links unless an error is reported. The pool excludes the address of every VLAN interface in its VLAN, and the address of every interface that is not a DHCP client on every link with DHCP clients; it excludes no other address and no address twice.", "quantifier": "all links, VLANs and interfaces", "why_tests_cant": "a test fixes one topology; the claim ranges over every topology and every order of requests", "anchors": [{"file": "netsim/modules/dhcp.py", "symbols": ["build_topology_dhcp_pools"]}]}
{"id": "C47", "title": "Management addresses and MAC addresses are unique", "statement": "Two different nodes never share an automatically assigned management MAC address or management IP address, and management addresses are inside the management subnet. When no error is reported, no two nodes share a management IPv4, IPv6 or MAC address and every node has a management address.", "quantifier": "all node ids and management pools", "why_tests_cant": "a test fixes one topology; the claim ranges over every topology and every order of requests", "anchors": [{"file": "netsim/augment/nodes.py", "symbols": ["augment_mgmt_if", "check_duplicate_mgmt_addr"]}]}
{"id": "C48", "title": "Defaults precedence", "statement": "A setting in the topology file overrides the same setting in every defaults file; among the defaults files the earlier one in the source list wins; environment variables override them all (unless they point below a scalar setting); plugin defaults come last, apart from those the plugin marks as important.", "quantifier": "all lists of default files", "why_tests_cant": "a test fixes one topology; the claim ranges over every topology and every order of requests", "anchors": [{"file": "netsim/utils/read.py", "symbols": ["load", "include_defaults", "build_defaults_list", "include_environment_defaults"]}]}
{"id": "C49", "title": "Primary provider selection", "statement": "The primary provider of a multi-provider topology is the first provider of the multi-provider list used by any node, and changing it never changes the effective provider of a node.", "quantifier": "all topologies and provider lists", "why_tests_cant": "a test fixes one topology; the claim ranges over every topology and every order of requests", "anchors": [{"file": "netsim/providers/__init__.py", "symbols": ["select_primary_provider", "mark_providers", "select_topology"]}]}
{"id": "C50", "title": "VXLAN flooding lists", "statement": "On a node using static flooding, the list of remote VTEPs of a VXLAN-enabled VLAN contains exactly the VTEP addresses, different from the node's own VTEP address, of the other nodes in the same VXLAN domain using the same VNI, without duplicates; the node-level list is the sorted union of those lists.", "quantifier": "all nodes, VLANs and VNIs", "why_tests_cant": "a test fixes one topology; the claim ranges over every topology and every order of requests", "anchors": [{"file": "netsim/modules/vxlan.py", "symbols": ["build_vtep_list", "node_set_vtep", "VXLAN.module_post_transform"]}]}
{"id": "C51", "title": "Duplicate addresses on a link are always found", "statement": "The duplicate address check on a link reports an error if and only if two interfaces on the link have the same address (with prefix length) in one address family, or an interface has the address of the link gateway.", "quantifier": "all links, interface lists and gateway settings", "why_tests_cant": "a test checks one combination of static and assigned addresses; the claim is an equivalence over all interface lists", "anchors": [{"file": "netsim/augment/links.py", "symbols": ["check_duplicate_address"]}]}
{"id": "C52", "title": "Interface MTU", "statement": "The MTU applied to a non-loopback interface of a node with an MTU setting is the interface MTU if there is one, otherwise the node MTU; an interface setting is dropped only when the device applies the same value as system MTU, and loopback interfaces have no MTU.", "quantifier": "all combinations of node MTU, interface MTU, interface type and device features", "why_tests_cant": "tests cover a few combinations of a four-way decision", "anchors": [{"file": "netsim/augment/links.py", "symbols": ["add_node_interface"]}]}
{"id": "C53", "title": "Bridge names", "statement": "Bridge names generated for links are pairwise different and, for link indices below 10000, at most 15 characters long; longer user-specified names are rejected.", "quantifier": "all lab names and link indices", "why_tests_cant": "uniqueness is a claim about all pairs of links", "anchors": [{"file": "netsim/augment/links.py", "symbols": ["set_link_bridge_name"]}]}
{"id": "C54", "title": "Order of custom configurations", "statement": "The topology-wide list of custom configuration templates contains every template used by a node exactly once; a template listed before another template on any node is before it in the topology-wide list; contradictory node lists, and only those, are a fatal error.", "quantifier": "all sets of nodes and their lists of custom configurations", "why_tests_cant": "there are infinitely many combinations of node lists, and Python set iteration order is not fixed", "anchors": [{"file": "netsim/augment/plugin.py", "symbols": ["find_preceding_configs", "sort_extra_config"]}]}
{"id": "C55", "title": "Route reflectors without a cluster ID share the lowest router ID of their AS", "statement": "All route reflectors of an AS without an explicit cluster ID get the same cluster ID: the lowest (in text order) router ID of these route reflectors; explicit cluster IDs and other nodes are not changed, whatever the order in which the AS numbers are processed.", "quantifier": "all topologies and iteration orders of the set of AS numbers", "why_tests_cant": "Python sets have no fixed order and the number of route reflectors is unbounded", "anchors": [{"file": "netsim/modules/bgp.py", "symbols": ["build_bgp_rr_clusters", "find_bgp_rr"]}]}
{"id": "C56", "title": "Interfaces running a routing protocol", "statement": "After the transformation an IGP runs in the global routing table on exactly those interfaces that are not external, on which it is not turned off, that have an IPv4 or IPv6 address and are not in a VRF; a VRF instance has exactly the corresponding VRF interfaces and exists only when it is forced or has a neighbor running the protocol; the address families are those of the loopback and the participating interfaces; the protocol is removed from the node iff it runs nowhere.", "quantifier": "all nodes, interfaces, VRFs and neighbor lists", "why_tests_cant": "a test fixes a few interfaces; the claim is about every combination of roles, VRFs, addresses and neighbors", "anchors": [{"file": "netsim/modules/_routing.py", "symbols": ["igp_post_transform", "build_vrf_interface_list", "routing_af", "remove_unused_igp", "remove_unaddressed_intf", "external", "network_type"]}, {"file": "netsim/modules/ospf.py", "symbols": ["OSPF.node_post_transform"]}]}
{"id": "C57", "title": "Constraints between attributes are enforced", "statement": "A missing mandatory attribute, an attribute which cannot be used together with another attribute of the same object, and an attribute which needs a module that is not enabled are always reported.", "quantifier": "all objects, attribute tables and lists of modules", "why_tests_cant": "the constraints apply to arbitrary user data and nested attribute definitions", "anchors": [{"file": "netsim/data/validate.py", "symbols": ["check_required_keys", "check_valid_with", "validate_item"]}]}
{"id": "C58", "title": "Link normalization", "statement": "Without errors, the normalized list of links has all links of the topology and of its link groups (nested to any depth) in their original order, without disabled links; every link keeps its attributes, interfaces and interface attributes, links have different names, a link gives the same result in all formats (string, list, dictionary with interfaces, dictionary with nodes), and interfaces belong to existing nodes unless the link is written as a string.", "quantifier": "all links elements: strings, lists, dictionaries, nested link groups; all node names", "why_tests_cant": "a test fixes one list of links; the claim ranges over all formats and all nestings", "anchors": [{"file": "netsim/augment/links.py", "symbols": ["adjust_link_list", "adjust_link_object", "adjust_interface_list"]}]}
{"id": "C59", "title": "LAG interfaces match member links and have unique numbers", "statement": "Every member link of a LAG connects the two sides of the LAG. When there are no errors, exactly the nodes at the ends of member links get a LAG interface. When the user does not number individual members, the numbers of LAG interfaces of a node are different (they grow in the order of links), a number set on the link is used when this is the first LAG of its nodes, and two nodes that always form an MLAG pair have the same numbers. Every member link ends in its own LAG as long as no LAG number is equal to the index of a LAG link processed later.", "quantifier": "all lists of LAG links, member links, user-defined numbers and MLAG pairs", "why_tests_cant": "numbers depend on all LAG links processed before; a test fixes one topology", "anchors": [{"file": "netsim/modules/lag.py", "symbols": ["create_lag_interfaces", "set_lag_ifindex", "create_lag_member_links", "LAG.node_post_transform"]}]}
{"id": "C60", "title": "Static routes are resolved into usable next hops", "statement": "A static route that is neither rejected nor skipped has a next hop in the address family of its prefix. A route through an adjacent node is replaced with routes (same prefix and VRF) through addresses of that node on directly connected interfaces in the VRF of the next hop: all of them, up to the number of next hops supported by the device. A route through a remote node uses the loopback or first interface address of that node. A route through the gateway uses gateways configured on the interface or its neighbors, or adjacent routers, regardless of the routes processed before, and all routes through the gateway in a VRF have the same next hops. A route through a node or a gateway never loses one of its prefixes. The VRFs of the route and the next hop have to be defined and supported.", "quantifier": "all static routes, lists of static routes, interfaces, neighbors, addresses and VRFs", "why_tests_cant": "next hops depend on all interfaces and on the routes processed before (gateways are cached); a test fixes one node", "anchors": [{"file": "netsim/modules/routing.py", "symbols": ["check_static_routes", "resolve_node_nexthop", "resolve_gateway_nexthop", "create_gateway_last_resort", "resolve_nexthop_intf", "check_VRF_static_route"]}]}
{"id": "C61", "title": "Hosts get static routes for all address pools", "statement": "The default static routes of a host cover every IPv4 and IPv6 prefix of every address pool apart from the management and router ID pools; the host gets those in its address families, each one once when every entry has a single prefix. A default route never causes an error: it is removed when the host has no usable gateway, and otherwise leads through usable gateways.", "quantifier": "all sets of address pools, address families, host interfaces and neighbors", "why_tests_cant": "a test fixes the pools and the topology", "anchors": [{"file": "netsim/augment/nodes.py", "symbols": ["default_static_route_list", "add_host_static_routes"]}, {"file": "netsim/modules/routing.py", "symbols": ["check_static_routes"]}]}
{"id": "C62", "title": "VLAN attributes of a link are consistent", "statement": "On an accepted link: every VLAN used in a link attribute is a global VLAN, and every VLAN used in an interface attribute is a global VLAN or a VLAN of the node; access VLANs are not mixed with trunks; native VLANs are used only with trunks; there is at most one global access VLAN; the native VLAN of an interface with its own VLAN attributes is in the trunk of the interface, and when there is a single native VLAN on the link, all such interfaces with this VLAN in their trunk use it as native; every VLAN in the trunk of an interface is in the trunk of another interface, or it is the native VLAN and there is a VLAN-unaware interface. Links with a global access VLAN, and links between VLAN-aware nodes with a trunk of global VLANs (and a native VLAN from the trunk), are always accepted.", "quantifier": "all links, VLAN attributes, VLAN definitions and nodes", "why_tests_cant": "the rules relate attributes of all interfaces of a link and VLANs of all nodes; a test fixes a few combinations", "anchors": [{"file": "netsim/modules/vlan.py", "symbols": ["link_pre_transform", "check_link_vlan_attributes", "validate_link_vlan_attributes", "validate_trunk_vlan_list"]}]}
{"id": "C63", "title": "VLAN forwarding modes, subnets and member links", "statement": "An accepted link keeps its interfaces. The forwarding mode of an interface in a VLAN is the first one set in: the trunk (for tagged VLANs), the interface or link, the VLAN on the node, the node, the global VLAN, the topology; and irb otherwise. IP addressing is disabled in bridge mode. A link on which all VLAN interfaces are routed does not share the subnet of the VLAN; all other links in a global VLAN (including trunk member links) have the prefix of the VLAN. A trunk has exactly one member link for every VLAN in its trunk other than the native VLAN, connecting exactly the interfaces with that VLAN in the trunk.", "quantifier": "all links, VLAN attributes, VLAN definitions and nodes", "why_tests_cant": "precedence and member links depend on attributes at six levels and on all interfaces; a test fixes a few combinations", "anchors": [{"file": "netsim/modules/vlan.py", "symbols": ["link_pre_transform", "set_link_vlan_prefix", "create_vlan_links", "create_vlan_member_interface", "set_access_vlan_interface_mode", "get_link_access_vlan"]}]}
{"id": "C64", "title": "VLAN interfaces of a node", "statement": "When VLAN interfaces are created on a node: the node gets exactly one VLAN interface for every VLAN in which it has a bridged access or native interface and none for other VLANs; VLAN interfaces follow the existing interfaces and have unique interface indices; a VLAN interface is named from the ID and the bridge group of the VLAN, has the VLAN mode selected by the documented precedence (node VLAN, node, global VLAN, topology, irb), and takes its addresses and gateway from the first bridged interface in the VLAN (no addresses in bridge mode unless they are specified in the VLAN). Bridged interfaces lose their addresses, gateway and neighbors and get the VLAN ID; routed VLAN interfaces keep their addresses and neighbors; other interfaces are not changed. Bridge groups of VLANs on a node are unique, and every VLAN used on an interface has one.", "quantifier": "every topology with global VLANs, every node with any list of interfaces and node VLANs (without VLAN interfaces and bridge groups before the process), every VLAN interface name format", "why_tests_cant": "The result depends on the combination of VLANs, modes and the order of interfaces; the number of combinations is not bounded, and the process changes VLANs and interfaces while going through the list.", "anchors": [{"file": "netsim/modules/vlan.py", "symbols": ["create_svi_interfaces", "create_node_vlan", "populate_node_vlan"]}, {"file": "netsim/augment/links.py", "symbols": ["create_virtual_interface", "get_unique_ifindex"]}]}
{"id": "C65", "title": "VLAN-wide neighbors", "statement": "After VLAN interfaces have been created on all nodes, an interface that is a part of a global VLAN (a VLAN interface or an interface of a node not using VLANs) has as neighbors exactly the other nodes attached to links of that VLAN anywhere in the network, each of them once (no node attached twice to a link): a node with a VLAN interface in this VLAN is listed with the name and addresses of that interface, other nodes with the interface connected to the link. An interface in a VLAN defined only on its node has only neighbors from the links of that node. A VLAN interface of a router or switch has stub role if and only if all its neighbors are hosts.", "quantifier": "every list of nodes with unique names, any number of VLANs, links and interfaces", "why_tests_cant": "The neighbor list is built incrementally while nodes and interfaces are processed (with replacement of entries found on physical links), and is shared by all nodes; tests use a few small topologies.", "anchors": [{"file": "netsim/modules/vlan.py", "symbols": ["update_vlan_neighbor_list", "set_svi_neighbor_list", "get_vlan_data", "module_post_link_transform"]}]}
{"id": "C66", "title": "VLAN trunks are turned into exactly the needed subinterfaces", "statement": "When VLAN trunks of a node are accepted, every routed VLAN in a trunk (on devices using the router model: every VLAN) gets one subinterface of the port the trunk is on; it is named after that port and numbered in order within it, keeps its addresses and neighbors, and has a name no other subinterface has. Member interfaces of bridged VLANs disappear on switches, no other interface is added, removed or renamed. The VLAN IDs left on the trunk are exactly those VLANs of the trunk that have no subinterface and are not the routed native VLAN; a trunk with nothing left is removed. Devices without mixed-trunk support never end up with a port that has both subinterfaces and bridged VLANs, switches never end up with a routed native VLAN on a port with bridged VLANs, routed native VLANs appear only on devices supporting them and layer-2 switches have no subinterfaces.", "quantifier": "all device feature combinations and naming templates, all lists of node interfaces with any trunks, member interfaces and parent links", "why_tests_cant": "The result depends on the order of interfaces, on the number of trunks on the node, nodes attached twice to a link, and on the device feature flags; tests use a handful of devices and trunks.", "anchors": [{"file": "netsim/modules/vlan.py", "symbols": ["map_trunk_vlans", "find_parent_interface", "remove_vlan_from_trunk", "rename_vlan_subinterfaces", "cleanup_routed_native_vlan", "check_mixed_trunks", "check_mixed_native_trunk"]}]}
{"id": "C67", "title": "MPLS is enabled on exactly the requested interfaces and BGP sessions", "statement": "On a node with LDP, LDP runs on exactly the IPv4 interfaces in the global routing table that do not lead to an external network, passively on passive and stub links; the node runs LDP if and only if one of its interfaces does. When the MPLS settings of a node are accepted, a BGP session carries labels for an address family exactly when the session exists in that address family and labels are requested for that address family and session type; every neighbor with an IPv4 session gets a VPN address family exactly when it is requested on the node and used by a VRF of the node, needed on a route reflector or requested for EBGP sessions; 6PE is used on exactly the IPv4 sessions of the requested types, and the IPv6 session is removed exactly when the other end uses 6PE on it too, thus on both ends or on neither. Labels, VPN address families and 6PE appear only on devices supporting them.", "quantifier": "all nodes, lists of interfaces and BGP neighbors, all forms of mpls.bgp, mpls.vpn and mpls.6pe settings (true, list of session types, dictionary of address families), all device features", "why_tests_cant": "Settings come in several forms that are normalized in three places, and the result depends on the address families of the node, session, VRFs and both ends of the session; tests cover a few combinations.", "anchors": [{"file": "netsim/modules/mpls.py", "symbols": ["node_adjust_ldp", "validate_mpls_bgp_parameter", "node_adjust_bgplu", "node_adjust_6pe", "prune_mplsvpn_af", "node_adjust_mplsvpn", "check_node_features", "MPLS.node_pre_transform", "MPLS.node_post_transform"]}, {"file": "netsim/data/__init__.py", "symbols": ["bool_to_defaults"]}]}
{"id": "C68", "title": "BGP sessions have exactly the configured session attributes", "statement": "When the settings used by the bgp.session plugin are accepted, every BGP session that is not removed keeps its neighbor, type, VRF and interface. For every session attribute, an IBGP or EBGP session has a value exactly when the attribute is applied to sessions of its type (by default all attributes to EBGP sessions and none to IBGP sessions, otherwise as set with bgp.session.apply) and the value is the one configured on the interface of the session (EBGP only) or else on the node. Every attribute used is supported by the device, sessions with TCP-AO have a password and sessions with BFD are on nodes with the BFD module.", "quantifier": "all topologies with BGP nodes, interfaces, neighbors and session attributes; all bgp.session.apply settings; all device features", "why_tests_cant": "The value depends on the node, the interface, the type of the session, bgp.session.apply, leftovers of attributes in the data copied from the other end of the link and changes made by route server processing of the nodes handled earlier; tests cover a few sessions.", "anchors": [{"file": "netsim/extra/bgp.session/plugin.py", "symbols": ["apply_neighbor_attributes", "copy_local_attributes", "process_tcpao_secrets", "process_bfd_requests", "post_transform"]}, {"file": "netsim/utils/routing.py", "symbols": ["neighbors", "intf_neighbors", "cleanup_neighbor_attributes", "check_device_attribute_support"]}]}
{"id": "C69", "title": "Route servers prune the mesh of EBGP sessions and mark their clients", "statement": "When route servers are set on nodes and the settings are accepted, a BGP session is removed from a node exactly when it is an EBGP session between two route servers, or an EBGP session between two nodes that are not route servers on an interface of the node with an EBGP session to a route server. Every remaining EBGP session of a route server, and no other session, has the route server attribute; a remaining EBGP session is marked as the session of a route server client exactly when the neighbor is a route server, and only on devices that can be clients. The result does not depend on the order of nodes.", "quantifier": "all topologies with any number of route servers, clients and shared subnets, in any order of nodes", "why_tests_cant": "The sessions are changed while the nodes are processed one after another, each node changing the data of its neighbors; a test covers one order of nodes and one set of route servers.", "anchors": [{"file": "netsim/extra/bgp.session/plugin.py", "symbols": ["zap_bgp_neighbor", "set_rs_client", "process_rs_requests", "cleanup_rs_mesh", "cleanup_bgp_neighbors", "post_transform"]}]}
{"id": "C70", "title": "The BGP AS list sets AS numbers and route reflectors consistently", "statement": "The global AS list is accepted exactly when no node is a member of two autonomous systems (or twice of the same one), the route reflectors of every AS are among its members, no node has a different AS number of its own, and every node that runs BGP has an AS number. Then every node keeps its own AS number or gets that of the only AS it belongs to, and is a route reflector when it is in the global list of route reflectors, or as set on the node, or else as set in the AS list.", "quantifier": "all AS lists, lists of route reflectors and sets of nodes", "why_tests_cant": "Every error depends on the combination of several entries and of the data of a node; tests cover a handful of lists.", "anchors": [{"file": "netsim/modules/bgp.py", "symbols": ["process_as_list", "check_bgp_parameters", "BGP.node_pre_transform"]}]}
{"id": "C71", "title": "Links and VLANs between autonomous systems get the EBGP role", "statement": "When an EBGP role is defined, a link that is not part of a VLAN and has no role gets that role exactly when two of the attached nodes have different AS numbers, and a global VLAN without a role gets it exactly when two nodes attached to links of that VLAN have different AS numbers. All other roles are kept, and nothing changes when no EBGP role is defined.", "quantifier": "all sets of links, VLANs and AS numbers", "why_tests_cant": "The role of a VLAN depends on all links of the VLAN, wherever they are in the list of links; tests cover a few lists.", "anchors": [{"file": "netsim/modules/bgp.py", "symbols": ["ebgp_role_link", "vlan_ebgp_role_collect", "vlan_ebgp_role_set", "BGP.module_pre_link_transform"]}]}
{"id": "C72", "title": "BGP advertises exactly the wanted prefixes and activates exactly the wanted address families", "statement": "The prefix of an interface is advertised exactly when BGP is not disabled on it and it has the advertise flag or, without the flag, has an advertised role (a stub link only when all neighbors are hosts that are not daemons) or is a loopback and loopbacks are advertised. The BGP process runs IPv4 or IPv6 exactly when it has a global neighbor with an address in that family, originates prefixes (IPv4), advertises a loopback with that family, or advertises the prefix of an interface outside VRFs with that family. When the settings are accepted, the family is active on exactly the sessions that use it as transport and have a type listed in bgp.activate (all sessions when it is not used), which is supported by the device, and named prefixes are replaced by their IPv4 values.", "quantifier": "all nodes, interfaces, neighbors, roles, activation lists and named prefixes", "why_tests_cant": "The result depends on several flags of all interfaces and neighbors; a test covers one combination.", "anchors": [{"file": "netsim/modules/bgp.py", "symbols": ["build_bgp_sessions", "activate_bgp_default_af", "bgp_set_advertise", "bgp_set_originate_af"]}, {"file": "netsim/modules/_routing.py", "symbols": ["is_true_stub"]}]}
{"id": "C73", "title": "BGP communities are propagated as configured", "statement": "A setting of BGP communities is accepted exactly when the device knows all keywords. Then sessions of every type propagate exactly the communities the device uses for the keywords configured for that type, without repetitions; sessions built with local AS inside an AS use the IBGP communities.", "quantifier": "all community settings and device keyword tables", "why_tests_cant": "The translation can map one keyword to several words and several keywords to one word; tests cover the tables of existing devices.", "anchors": [{"file": "netsim/modules/bgp.py", "symbols": ["check_bgp_parameters", "bgp_transform_community_list"]}, {"file": "netsim/data/__init__.py", "symbols": ["kw_lookup", "kw_list_transform"]}]}
{"id": "C74", "title": "EVPN VLANs become independent services or members of the bundle of their VRF", "statement": "When the EVPN settings are accepted, the list of EVPN VLANs is the configured one or all VLANs with a VNI, and contains global VLANs only. Every VLAN in the list that is not in a VRF with a bundle is an independent service: its EVPN instance is the configured one or the VLAN id and is within 1..65535, and its route targets are the configured ones or AS:instance. Every VLAN in the list that is in a VRF with a bundle has the bundle type and the EVPN instance (configured or VRF id) of the VRF, and the VRF lists exactly these VLANs and their ids. Other VLANs are not changed. VLANs with different ids and no EVPN attributes never share a route target.", "quantifier": "all lists of EVPN VLANs (also with repetitions), all global VLANs and VRFs", "why_tests_cant": "VLANs are processed one after another and change the data of VRFs; the result must not depend on the position of a VLAN in the list, and tests cover a few lists.", "anchors": [{"file": "netsim/modules/evpn.py", "symbols": ["validate_evpn_lists", "get_usable_evpn_asn", "vlan_based_service", "vlan_aware_bundle_service", "get_vlan_bundle_flag", "create_vlan_service", "vrf_irb_setup", "EVPN.module_post_node_transform"]}, {"file": "netsim/modules/_dataplane.py", "symbols": ["validate_object_reference_list"]}]}
{"id": "C75", "title": "EVPN on nodes: sessions, lists, route distinguishers and IRB support", "statement": "EVPN is active on exactly the BGP sessions of the configured types with nodes that use EVPN, and on both ends of a session when both nodes use the same session types. The EVPN VLANs and VRFs of a node are those in its own list, or else in the global list, that are present on the node. A node is accepted exactly when all its EVPN objects have an EVPN instance, the device supports all bundles it uses and all VRFs with addresses are usable: with symmetric IRB (transit VNI or MPLS transport) the device supports it or the transport is not VXLAN; otherwise the device supports asymmetric IRB and the node has all EVPN VLANs of VRFs with a name that contains the name of the VRF, thus all EVPN VLANs of that VRF. Then every EVPN object has a route distinguisher: the configured one, or the router ID followed by the EVPN instance; these differ when the instances do.", "quantifier": "all nodes, neighbors, EVPN lists, VLANs, VRFs and device features", "why_tests_cant": "Errors depend on the combination of the data of a node, global data and device features; tests cover a few combinations.", "anchors": [{"file": "netsim/modules/evpn.py", "symbols": ["enable_evpn_af", "copy_global_evpn_lists", "trim_node_evpn_lists", "set_local_evpn_rd", "check_asym_vlan", "check_node_vrf_irb", "check_node_vrf_bundle", "EVPN.node_post_transform"]}]}
{"id": "C76", "title": "EBGP multihop sessions use loopbacks and leave no other traces", "statement": "Every EBGP multihop session becomes a tunnel link with the attributes of the session as BGP attributes and with both ends using addresses of node loopbacks; an error is reported exactly when a node has no loopback. After the transformation, interfaces created for the sessions are gone and other interfaces are unchanged. A neighbor in a VRF with a loopback is reached through that loopback, the source of the session is the loopback of the node or of the VRF on the node, and the active address families are those selected for the session (for IPv6 when the neighbor has an IPv6 address, otherwise for IPv4). Other neighbors are not changed. The topology is accepted exactly when devices support what is used, and the sessions in VRFs with a reachable neighbor have a loopback in the VRF. The result does not depend on the order of nodes.", "quantifier": "all lists of sessions, nodes, interfaces, VRFs and neighbors", "why_tests_cant": "Nodes are changed one after another while data of other nodes is used; the result must hold for every order and combination of VRFs.", "anchors": [{"file": "netsim/extra/ebgp.multihop/plugin.py", "symbols": ["pre_link_transform", "fix_vrf_loopbacks", "cleanup_interfaces", "remove_fake_interfaces", "augment_af_activation", "check_multihop_support", "check_af_activation_support", "post_transform"]}, {"file": "netsim/modules/vrf.py", "symbols": ["get_vrf_loopback"]}, {"file": "netsim/utils/routing.py", "symbols": ["neighbors"]}]}
{"id": "C77", "title": "Lists of VLANs and VRFs are complete and refer to existing objects", "statement": "A non-empty list of VLANs or VRFs used by the VXLAN and EVPN modules is kept as it is. An empty or missing list becomes, when a default is wanted and the node has such objects, the list of its objects that satisfy the filter, followed by the remaining elements of the global list (VXLAN) in their order and without repetitions. An error is reported if and only if the final list has an element that is neither a local nor a global object.", "quantifier": "all local and global lists and objects", "why_tests_cant": "Tests use a few lists; the claim ranges over all combinations of local and global lists.", "anchors": [{"file": "netsim/modules/_dataplane.py", "symbols": ["validate_object_reference_list"]}, {"file": "netsim/modules/vxlan.py", "symbols": ["validate_vxlan_list"]}]}
{"id": "C78", "title": "BGP policies of EBGP neighbors come from the local interface", "statement": "With the bgp.policy plugin, every EBGP neighbor on an interface of an accepted node has exactly the BGP policy attributes of that interface (values that are not zero or empty; a plain bandwidth is an incoming bandwidth; node-level local preference is used where the interface has none, unless the device can set it for all routes), none of the attributes the remote end uses, and the routing policies requested on that interface. Attributes that need a route map are collected, per direction, in a route map of the node the neighbor points to, with exactly those attributes; no other neighbor's route map replaces it, and routing policies of the user are not changed unless their names start with bp-. IBGP neighbors and EBGP neighbors on other interfaces have no policies. A node with the routing module is accepted exactly when the device supports every used attribute, every requested routing policy can be used, and no interface uses a routing policy together with attributes that need a route map in the same direction.", "quantifier": "all nodes: any number of interfaces with distinct indices and any attributes, values and routing policies, any number of EBGP and IBGP neighbors, any device features, any routing policies of the user", "why_tests_cant": "names of generated route maps depend on a counter over all neighbors; attributes of interfaces are changed while neighbors are processed; whether one neighbor's route map can overwrite another one's needs an argument over all nodes", "anchors": [{"file": "netsim/extra/bgp.policy/plugin.py", "symbols": ["post_transform", "apply_policy_attributes", "append_policy_attribute", "create_routing_policy", "apply_bgp_routing_policy", "fix_bgp_bandwidth", "bgp_policy_name"]}, {"file": "netsim/utils/routing.py", "symbols": ["intf_neighbors", "cleanup_neighbor_attributes"]}]}
{"id": "C79", "title": "Routing policies on nodes", "statement": "Routing policies and filters of a node are complete or rejected. Shortcuts in policy entries (locpref, med, prefix ...) end up in set or match, values in the entry win, actions and sequence numbers get defaults and other attributes are kept. When the routing objects of a node are accepted, every policy has the node entries and the global entries with other sequence numbers, the device supports every set and match attribute, every filter used by a policy is on the node, and all filters are merged with global filters. They are accepted exactly when all policies and filters are defined on the node or globally and supported by the device, and no policy uses a community list with entries coming from a global list.", "quantifier": "all policy entries, node and global policies, filters and device features", "why_tests_cant": "policies refer to filters that are imported while other policies are processed; tests cover a few combinations of node and global objects", "anchors": [{"file": "netsim/modules/routing.py", "symbols": ["normalize_policy_entry", "check_routing_policy", "import_routing_object", "import_policy_filters", "process_routing_data"]}]}
{"id": "C80", "title": "Creation of groups and group members", "statement": "Objects are created exactly for the members of groups that ask for it (their own setting, or the global setting for topology groups): existing objects stay, nothing is created twice, and no object is created for the name of a group. The basic checks succeed exactly when groups are well formed and no group has the name of a node. Accepted topology groups have exactly the listed members, all of them existing objects or groups; default groups that are not in the topology have the listed members that exist; nodes that list a group are added after these members. The group of a BGP autonomous system has exactly the nodes using BGP with this AS number, in the order of nodes; other groups do not change, and AS groups with static members or with names of nodes are rejected.", "quantifier": "all topology groups, default groups, settings, objects and nodes", "why_tests_cant": "groups come from four sources that are merged in several steps; tests cover a few combinations", "anchors": [{"file": "netsim/augment/groups.py", "symbols": ["check_group_data_sanity", "auto_create_members", "precheck_groups", "check_group_data_structure", "init_groups", "add_node_level_groups", "create_bgp_autogroups"]}]}
{"id": "C81", "title": "Link types, link roles and group links", "statement": "A link that is processed has one or more nodes, exactly two nodes on a point-to-point link, and a single node on a stub link or a loopback; every other link is reported. A link without a type is a LAN when it has more than two nodes or hosts, a point-to-point link between two routers and a stub link (or a loopback when the device uses loopbacks instead of stub links) with a single node, and is never rejected when it has nodes; a type specified by the user is kept unless the only node uses loopbacks. A role specified by the user is kept; a link without a role becomes a stub link exactly when it has at most one node that forwards packets and is not a loopback or a VLAN link. Without errors, group links are replaced by their members, in order, after all other links; members keep their nodes and attributes and get other attributes from the group link.", "quantifier": "all links with any number of nodes, types, roles and device settings; all lists of links and group links with any members", "why_tests_cant": "a test fixes one list of links; the claim ranges over all links, numbers of nodes, nested attributes and group links", "anchors": [{"file": "netsim/augment/links.py", "symbols": ["set_link_loopback_type", "count_link_nodes", "get_default_link_type", "set_link_type_role", "check_link_type", "set_linknames", "expand_groups"]}, {"file": "netsim/data/types.py", "symbols": ["must_be_id", "must_be_list"]}]}
{"id": "C82", "title": "VRFs on nodes and VRF loopbacks", "statement": "The VRF module and the VRFs are removed from a node exactly when no interface is in a VRF and no VRF has a loopback parameter. A node that uses VRFs is accepted exactly when all its VRFs have identifiers, VRFs of interfaces exist and have route distinguishers, and there is an AS number when VRFs exchange routes. VRFs then have different indices starting with 100 in the order of their identifiers, a VRF has exactly the address families of its interfaces and loopback, and every VRF that should have a loopback gets exactly one, with a unique interface index and the specified addresses or addresses of a separate allocation from the pool; other interfaces do not change apart from parents of unnumbered interfaces, which become the loopbacks of their VRFs.", "quantifier": "all nodes with any interfaces, VRFs, route targets, loopback parameters, AS numbers; all device settings and address pools", "why_tests_cant": "a test fixes one node; the claim ranges over all sets of VRFs and interfaces", "anchors": [{"file": "netsim/modules/vrf.py", "symbols": ["VRF.node_post_transform", "vrf_loopbacks", "fix_vrf_unnumbered", "validate_vrf_route_leaking"]}, {"file": "netsim/augment/links.py", "symbols": ["create_virtual_interface", "get_unique_ifindex"]}]}
{"id": "C83", "title": "Route import and default routes", "statement": "Requests to import routes into a routing protocol are accepted exactly when the device can import routes into that protocol and from every listed source, and every source that is not disabled is a different protocol running on the node (or connected routes) and uses an existing routing policy the device can use. The accepted imports of the node and of each VRF are exactly the requested ones without the disabled ones (RIPv2 is called RIP), and their policies are on the node. A VRF without import requests gets imports from connected routes and the protocols that run in the VRF when the device can import routes in VRFs. When a protocol turns out not to be active in a VRF, automatic imports of its routes are removed from all protocols of that VRF, explicit imports are reported, and nothing else changes. Default route settings are accepted exactly when the device supports them; disabled ones disappear, `true` becomes an enabled default route, and policies are on the node.", "quantifier": "for all nodes, VRFs, protocols, device features, import and default route settings, global policies", "why_tests_cant": "The outcome depends on combinations of device features, modules, VRF settings and policies; tests use a few devices.", "anchors": [{"file": "netsim/modules/_routing.py", "symbols": ["check_import_request", "process_imports", "remove_vrf_imports", "is_vrf_protocol", "node_add_routing_policy", "default_route_adjust", "process_default_route"]}]}
{"id": "C84", "title": "Setup of address pools and named prefixes", "statement": "User-defined address pools extend or replace the legacy ones: user attributes win, a text is an IPv4 pool, unnumbered pools have no prefixes, disabled address families are removed, and the default IPv4 subnet length is 32 in pools with `loopback` in their name and 24 in all others. The pools are accepted exactly when all prefixes are networks of the right address family, prefix lengths are in range, IPv4 subnets are not larger than IPv4 pools, IPv6 pools are not smaller than /56 (neither is checked in the management pool), and there are lan and loopback pools, the latter with an address family. When, in addition, IPv6 and management subnets are not larger than their pools, the setup does not fail and every pool hands out subnets of the configured length of its prefix, starting with the first (or second) one. Every named prefix taken from a pool has a subnet of the pool in each of its address families, does not overlap other named prefixes from that pool or any prefix handed out later, and does not change when it is used again; other named prefixes do not change.", "quantifier": "all legacy pools, user-defined pools, named prefixes and later prefix requests", "why_tests_cant": "the properties relate all pools, all named prefixes and every later allocation; tests use a few pools", "anchors": [{"file": "netsim/augment/addressing.py", "symbols": ["setup_pools", "normalize_prefix", "validate_pools", "create_pool_generators", "setup", "evaluate_named_prefix", "setup_prefixes"]}]}
{"id": "C85", "title": "Outputs contain only managed devices", "statement": "Removing unmanaged devices leaves exactly the managed nodes, in their order, and the links they use. Every remaining link keeps its attributes and exactly the interfaces of managed nodes; links of managed nodes only do not change; a two-node link that loses a node becomes a stub link (a LAN if it has hosts) and other links keep their type; a changed link that needs a bridge has one and an existing bridge name is kept. When the numbers of nodes on links were not changed by a provider, a link is left exactly when it has a managed node, and the number of nodes is right on every link. Removing unmanaged devices again, or from a lab without unmanaged devices, changes nothing.", "quantifier": "all topologies with any nodes, links and interfaces", "why_tests_cant": "the claim ranges over all topologies and combinations of managed and unmanaged devices", "anchors": [{"file": "netsim/augment/nodes.py", "symbols": ["ghost_buster"]}, {"file": "netsim/augment/links.py", "symbols": ["get_default_link_type", "set_link_bridge_name"]}]}
{"id": "C86", "title": "Final cleanup of nodes", "statement": "A node is accepted exactly when its interfaces have different names, the system MTU (on devices that use it) is not lower than the minimum physical MTU, and all MTU values that are used are within the limits of the device and not lower than 1280 with IPv6. Interface MTU values equal to the system MTU are removed, values that are not valid physical MTU values are marked, and nothing else changes; the effective MTU of every interface stays the same. Of the configuration files of a daemon exactly those used for the device, a module or a configuration template of the node stay, apart from internal ones.", "quantifier": "all nodes, interfaces, MTU values and device features; all daemon configuration mappings", "why_tests_cant": "the claim ranges over all combinations of MTU values, limits and names", "anchors": [{"file": "netsim/augment/nodes.py", "symbols": ["check_unique_ifnames", "cleanup_mtu", "cleanup_daemon_config", "cleanup"]}]}
{"id": "C87", "title": "DHCP clients and relays", "statement": "On a link, an interface becomes a DHCP client for an address family exactly when its address is `dhcp`, it is a DHCP client on its own, or the link has DHCP clients, the interface is not excluded and is not a VLAN interface; a `dhcp` address is removed; the link and the node learn about the client unless the client is a VLAN interface on a link with DHCP clients; the link is rejected exactly when an interface has the address `dhcp` and the link excludes DHCP clients. In the final transformation the topology is accepted exactly when devices support servers, clients and relays where they are used (for the address families on relaying interfaces), all relay targets are DHCP servers with a control-plane address in every address family that has DHCP clients on the relaying interface, the VRF of inter-VRF relaying exists, and DHCP client interfaces run no EBGP, and run OSPF or IS-IS only when the device can do that. Interfaces of an accepted topology: DHCP clients have no static address, all other addresses are kept; servers and relays are not clients; the relay targets are the control-plane addresses (loopback of a router, first interface of a host) of the servers in the order given by the user, present exactly for address families with DHCP clients among the neighbors. The result does not depend on the order of nodes. Defects: an explicit DHCP client on a VLAN interface is forgotten when the link has DHCP clients; a server with an unnumbered interface becomes the relay target 0.0.0.1; the check of relay address families does not prevent the configuration, and missing targets are reported twice.", "quantifier": "all lists of interfaces on a link with any addresses, client attributes and VLAN modes; all lists of nodes with distinct names, any roles, features, interfaces, neighbors, servers and VRFs; all functions extracting an address; all orders of nodes", "why_tests_cant": "Relay targets are read from nodes that are being changed by the same loop: whether a server's address is still there depends on the order of nodes, on roles and on who is a client at the same time; tests cover a few hand-made topologies.", "anchors": [{"file": "netsim/modules/dhcp.py", "symbols": ["check_protocol_support", "set_dhcp_relay", "check_dynamic_routing", "DHCP.link_pre_transform", "DHCP.module_post_transform"]}, {"file": "netsim/modules/_routing.py", "symbols": ["get_remote_cp_endpoint"]}, {"file": "netsim/utils/routing.py", "symbols": ["get_intf_address"]}]}
{"id": "C88", "title": "BGP domains cut IBGP sessions", "statement": "The bgp.domain plugin removes exactly the IBGP sessions between nodes in different BGP domains (a node without a domain is in the domain `default`); all other sessions and their order and attributes are kept, and a session known to both ends is removed on both ends. The topology is accepted exactly when every BGP router that has an IBGP session with a route reflector in another domain has a route reflector in its own AS and domain, regardless of the order of nodes. The plugin crashes exactly when an IBGP neighbor is not a node or when the problem it should report is in a domain with a colon in its name (a defect). Local-AS IBGP sessions between domains are kept (a defect).", "quantifier": "all lists of nodes with distinct names, any domains, AS numbers, route reflector flags and neighbor lists", "why_tests_cant": "Whether the missing route reflector is reported depends on flags collected while going over the nodes, so on the order in which clients and route reflectors are visited; tests use two or three topologies.", "anchors": [{"file": "netsim/extra/bgp.domain/plugin.py", "symbols": ["post_transform"]}]}
{"id": "C89", "title": "A BGP prefix test passes exactly when the table has a path with the requested attributes", "statement": "A validation test of a BGP prefix on FRR or EOS that expects the prefix to be there passes exactly when the device's table has the prefix, no unknown parameter was used, and (when attributes are requested) at least one path of the prefix has all of the requested peer, next hop, best-path flag, cluster ID, AS-path elements, AS path, local preference and MED. A test that expects the prefix to be absent never passes when such a path exists; with a single attribute it passes exactly when no such path exists. A community test on FRR passes exactly when every requested community is found in the text of a path that has the attributes checked before communities. A test that expects an absent path fails when a path has just the first of several attributes, parameters after communities are ignored, communities match as substrings and on different paths, and the EOS lookup ignores the VRF parameter.", "quantifier": "every set of test parameters, expected state, and table content reported by the device", "why_tests_cant": "the outcome depends on every combination of parameters with every combination of paths; tests use a handful of table dumps", "anchors": [{"file": "netsim/validate/_common.py", "symbols": ["report_state", "check_for_prefix", "run_prefix_checks"]}, {"file": "netsim/validate/bgp/frr.py", "symbols": ["valid_bgp_prefix"]}, {"file": "netsim/validate/bgp/eos.py", "symbols": ["valid_bgp_prefix", "get_bgp_prefix"]}]}
{"id": "C90", "title": "STP port types are inherited in a fixed order and wrong STP settings are rejected", "statement": "On a node with STP enabled, an explicit port type is never changed, IP and virtual interfaces and devices without port-type support are left alone, and every other interface gets the first of: the stub port type of the topology (when it is set and all connected devices are hosts), the port type of its access VLAN, the port type of the node; nothing else on the interface changes. The node is accepted exactly when the device supports the requested STP flavour, the bridge priority is a multiple of 4096, no STP settings are used on IP interfaces, per-port enable and port types are used only on devices that support them, and VLAN priorities are used only with per-VLAN STP. A node with STP disabled is not checked or changed.", "quantifier": "every node, its interfaces and VLANs, topology settings and device features", "why_tests_cant": "the inheritance order matters only in combinations of interface, VLAN, node and topology settings; tests contain a few of them", "anchors": [{"file": "netsim/modules/stp.py", "symbols": ["supports_stp", "configure_stub_port_type", "STP.node_post_transform"]}]}
{"id": "C91", "title": "File mappings of containers are normalized without losing files", "statement": "A list of file mappings is accepted, and not changed, exactly when every element is a string with a single colon; otherwise it is reported and emptied. A dictionary of files that became a hierarchy (names with dots) results in one host:target line for every file when the names differ before the first dot; any other dictionary is reported and emptied. A dictionary written as lines reads back as the same dictionary when host names have no colons. Adding configuration templates keeps all existing mappings in place and adds one mapping into the per-node folder for every template that exists and is not a mapped file; every missing template is reported. Two names in a dictionary that are equal up to the first dot are rejected, and of two targets of the same host file only the last one is kept when the node uses templates.", "quantifier": "every list, dictionary and hierarchy of file mappings, every set of templates", "why_tests_cant": "the outcome depends on dots, colons and at-signs in arbitrary names; tests cover a few names", "anchors": [{"file": "netsim/data/filemaps.py", "symbols": ["box_to_dict", "dict_to_mapping", "mapping_to_dict", "normalize_file_mapping"]}, {"file": "netsim/providers/__init__.py", "symbols": ["create_extra_files_mappings"]}, {"file": "netsim/providers/clab.py", "symbols": ["normalize_clab_filemaps"]}]}
{"id": "C92", "title": "Forwarded ports are added once and management addresses must be in the management pool", "statement": "The list of ports of a container starts with the ports set by the user and continues with one entry for every forwarded service the list does not contain; host ports of all nodes are different when the first ports of services are further apart than the node IDs. Management addresses of a node are accepted exactly when a required address is present and every address of the subnet of each management address belongs to the prefix of the management pool for that address family. Services with close first ports result in the same host port on two nodes.", "quantifier": "every set of forwarded services, node IDs, user ports, management addresses and pools", "why_tests_cant": "host-port collisions depend on combinations of node IDs and services; subnet checks range over all addresses and prefix lengths", "anchors": [{"file": "netsim/providers/__init__.py", "symbols": ["get_forwarded_ports", "validate_mgmt_ip"]}, {"file": "netsim/providers/clab.py", "symbols": ["add_forwarded_ports", "augment_node_data"]}]}
{"id": "C93", "title": "Vagrant interfaces, start batches and UDP tunnels of virtual machines", "statement": "In a lab using virtual machines, the list of network adapters of every machine has consecutive interface indexes starting with the first index of the device: no interface is lost, dummy interfaces fill the gaps, and the adapter count includes the management interface. Machines started in batches are each started once, in the original order, in batches of at most the requested size. The two ends of a point-to-point link between virtual machines are configured as the two ends of the same UDP tunnel, other interfaces do not become tunnel ends, and all interfaces attached to a link that does not use tunnels are connected to the bridge of that link.", "quantifier": "all lists of interfaces with distinct indexes, all lists of nodes and batch sizes, all sets of nodes, interfaces and links", "why_tests_cant": "Whether two ends of a tunnel match depends on the processing of two unrelated nodes, in which the links are modified; any number of nodes, links and gaps in interface numbers can occur.", "anchors": [{"file": "netsim/providers/libvirt.py", "symbols": ["pad_node_interfaces", "create_vagrant_batches", "Libvirt.pre_output_transform"]}, {"file": "netsim/templates/provider/libvirt/libvirt-tunnel.j2", "symbols": []}]}
{"id": "C94", "title": "Every node gets a known device, a usable provider, an image, and default attributes without losing its own", "statement": "Every node of an accepted topology has a known device (its own or the default one), an image (in this order of precedence: box or image specified in the node, image of the device, image of the device used with the node provider), and a provider: the one requested by the device, otherwise the one requested by the node, which must be known and compatible with the topology provider. A node is rejected only if one of these is missing or wrong. Providers requested by nodes are remembered as secondary providers of the lab. Other node attributes are not changed; attributes missing in a node are taken from device data or from the default node attributes of the device.", "quantifier": "all sets of nodes with arbitrary attributes, all dictionaries of devices and providers", "why_tests_cant": "The precedence of several sources must hold for all combinations of node, device and provider settings.", "anchors": [{"file": "netsim/augment/nodes.py", "symbols": ["validate_node_provider", "find_node_device", "find_node_image", "augment_node_provider_data", "augment_node_device_data"]}, {"file": "netsim/augment/devices.py", "symbols": ["get_provider", "get_provider_data", "get_consolidated_device_data"]}]}
{"id": "C95", "title": "Loopback addresses of nodes", "statement": "Routers and other devices that are not hosts get loopback addresses from their loopback pool (the pool named in the node, or pool 'loopback') in every address family of that pool, unless the node specifies its own address in that family. Allocated addresses belong to the pool and have the prefix length of the pool. Loopback addresses allocated from a pool for nodes with different identifiers are different, and do not belong to prefixes allocated earlier from the same pool for something else. Addresses specified in nodes are not changed, and hosts get no loopback. When no error is reported, no loopback address is a network or broadcast address of a subnet, and no loopback is unnumbered.", "quantifier": "all sets of address pools, all histories of earlier allocations, all lists of nodes, all values specified in nodes", "why_tests_cant": "pools, histories and nodes are unbounded; uniqueness depends on all earlier allocations", "anchors": [{"file": "netsim/augment/nodes.py", "symbols": ["loopback_interface", "transform"]}, {"file": "netsim/augment/addressing.py", "symbols": ["get", "get_pool_prefix"]}]}
{"id": "C96", "title": "Values of network data types", "statement": "The value of an IPv4 attribute is accepted exactly when it is allowed for the use of the attribute: booleans on interfaces and subnets, 32-bit numbers on interfaces and as identifiers, addresses everywhere, addresses with a prefix length on interfaces and as host prefixes, and prefixes without host bits as prefixes and subnets. The same holds for IPv6 attributes, but numbers cannot be identifiers. Numbers used as IPv4 identifiers become the text of the address with that number, so different identifiers stay different; other values are not changed, and validating a value again does not change it. An IPv4 address has exactly one accepted text. Named prefixes are replaced with their prefix where they are allowed. Every accepted route distinguisher text can be parsed later, booleans given as text become booleans, names of nodes, devices, pools, prefixes and protocols refer to existing objects, MAC addresses are unicast, and IS-IS NETs contain whole bytes of hexadecimal digits and dots.", "quantifier": "all values of all attributes, all named prefixes, all texts", "why_tests_cant": "values and texts are unbounded", "anchors": [{"file": "netsim/data/types.py", "symbols": ["common_addr_parse", "must_be_ipv4", "must_be_ipv6", "must_be_prefix_str", "must_be_bool", "must_be_mac", "must_be_net", "must_be_rd", "must_be_node_id", "must_be_device", "must_be_addr_pool", "must_be_named_pfx", "must_be_r_proto"]}, {"file": "netsim/modules/vrf.py", "symbols": ["parse_rdrt_value"]}]}
{"id": "C97", "title": "Protocol-specific IGP processing", "statement": "OSPF is accepted on a node exactly when every unnumbered OSPF interface has exactly one neighbor and the device supports unnumbered OSPF interfaces whenever they are used or requested. IS-IS is accepted exactly when the device supports every kind of unnumbered interface the node has (IPv4 unnumbered, IPv6 link-local only, unnumbered multi-access). IS-IS instances in VRFs of a node have different names. Strict BFD is used exactly when it is requested, supported, and the node runs BFD; a request that cannot be met is reported. OSPF parameters in a VRF keep their values and missing ones are taken from the node. When a RIP timer is set, all RIP timers are set, user-specified values are kept and missing values are derived from the update timer. A protocol running in a VRF on a device without such support is always reported. Unsupported optional interface parameters on global interfaces are all reported, each one once. SRv6 locators of nodes with different identifiers do not overlap, and a node without errors has a loopback prefix that is not within its locator.", "quantifier": "all lists of interfaces, VRFs and protocol data, all device features, all locator prefixes and node identifiers", "why_tests_cant": "Tests use a handful of devices and topologies; the acceptance conditions are quantified over all combinations of interfaces, VRFs and device features", "anchors": [{"file": "netsim/modules/ospf.py", "symbols": ["ospf_unnumbered", "propagate_node_attributes", "node_post_transform"]}, {"file": "netsim/modules/isis.py", "symbols": ["isis_unnumbered", "node_post_transform"]}, {"file": "netsim/modules/ripv2.py", "symbols": ["adjust_rip_timers"]}, {"file": "netsim/modules/srv6.py", "symbols": ["node_post_transform"]}, {"file": "netsim/modules/_routing.py", "symbols": ["check_vrf_protocol_support", "check_intf_support", "get_router_id_blacklist"]}, {"file": "netsim/utils/routing.py", "symbols": ["igp_interfaces"]}]}
{"id": "C98", "title": "Interface data created from links", "statement": "An interface has the value of a propagated link attribute unless the interface sets it, in which case dictionaries are merged and interface values prevail; the result does not depend on the order in which attributes are processed. Neighbor data of an interface contain the node and interface name of the neighbor, its addresses and the data of its modules, and nothing else. Without errors, every interface address is absent, `true` (unnumbered) or an address with a prefix length, and the same in link and node data; a host index that could not be used and an address without prefix length are always reported. IPv4 unnumbered interfaces (and no others) have the loopback as their parent. Unnumbered interfaces are rejected exactly on devices that do not support them. The address-family flags of a node are set exactly for address families on its loopback or interfaces. Hosts get the gateway data of the link, nodes using the gateway module get gateway addresses and keep other interface parameters, and the gateway data of other nodes are not changed.", "quantifier": "all link and interface attributes, sets of propagated attributes, addresses, device features and gateway settings", "why_tests_cant": "Tests compare a few transformed topologies; attribute sets, address kinds and their combinations cannot be enumerated", "anchors": [{"file": "netsim/augment/links.py", "symbols": ["interface_data", "get_link_propagate_attributes", "create_node_interfaces", "cleanup_link_interface_AF_entries", "create_ifname", "set_interface_name", "set_parent_interface", "interface_feature_check", "copy_link_gateway", "set_node_af"]}]}
{"id": "C99", "title": "VLAN access links and VLANs without links", "statement": "Every VLAN that uses integrated routing and bridging on a node is used on at least one link of the node: when no link of the node uses the VLAN, exactly one single-node link is created for it, with the prefix of the global VLAN. No link is created for other VLANs, links of the topology are not changed, and the created links do not appear in the final topology. Every valid link listed in a global VLAN becomes an access link of that VLAN. Link indices of new links are consecutive. Attributes of an access interface are accepted exactly when the interface is routed, or when it has only physical interface attributes (or disabled address families) and does not connect a bridged interface to a routed global VLAN. Addresses and gateways from node VLANs replace those of access interfaces. Internal VLAN attributes are removed from interfaces.", "quantifier": "all lists of links, nodes and VLANs, all VLAN modes, interface attributes and VLAN attributes", "why_tests_cant": "Tests contain a few VLAN topologies; the claims hold for all lists of nodes, VLANs and links", "anchors": [{"file": "netsim/modules/vlan.py", "symbols": ["create_loopback_vlan_links", "create_vlan_link_data", "check_link_interface_attributes", "create_vlan_access_links", "rename_neighbor_interface", "cleanup_vlan_flags", "link_pre_link_transform", "module_post_link_transform"]}]}
{"id": "C100", "title": "Device data: attributes, features, daemons and lists of supported devices", "statement": "A device attribute has the provider-specific value when there is one; two dictionaries are merged with provider-specific values taking precedence. Node features take precedence over device features. Every daemon becomes a device with a parent (Linux by default) and a device type for configuration templates, existing devices are not changed, and a daemon with the name of a device is rejected. A device is on the list of devices supported by a module exactly when it was put there or has a feature for that module that is not false, and it is listed once. Template devices are removed, and without errors every other device has an interface name and a description.", "quantifier": "all device, provider, daemon and module definitions", "why_tests_cant": "User defaults can add or change any device, daemon or module; tests use the built-in definitions", "anchors": [{"file": "netsim/augment/devices.py", "symbols": ["get_device_attribute", "get_device_features", "merge_daemons", "build_module_support_lists", "augment_device_settings"]}]}
{"id": "C101", "title": "Attribute definitions and search path adjustments", "statement": "Attribute definitions and system search paths are completed predictably before a topology is checked. A node attribute without a data type gets the type of the global attribute (unless its propagation is disabled), an interface attribute without a data type gets the type of the link attribute (unless disabled) or, for attributes copied from nodes to interfaces, the type of the node attribute; explicit types never change and no attribute appears or disappears. As long as requests are not chained, a `copy` request is replaced by the definition in the source namespace and a `merge` request by the source definition with the requesting definition on top; all other definitions stay as they are and an error is reported exactly when a request names a namespace that does not exist. Every search path is the prepended directories, the original directories and the appended directories in this order, a missing search path is created from the adjustments, and no other path changes.", "quantifier": "all sets of attribute definitions in any namespaces, all propagation lists, all search path trees and adjustments of any depth", "why_tests_cant": "The result depends on the combination of namespaces, requests and nested adjustments; tests use the shipped defaults, which exercise one combination.", "anchors": [{"file": "netsim/augment/config.py", "symbols": ["copy_datatypes", "adjust_attributes", "copy_merge_attributes", "adjust_paths", "adjust_path_list"]}]}
{"id": "C102", "title": "Ansible inventory", "statement": "The Ansible inventory describes the lab faithfully. A host is in an inventory group exactly when it is the group of its device, a group of nodes with modules, custom configuration or daemons it belongs to, or a topology group with the node among its members; child groups are the member groups. Variables of a node are in its device group only, and they follow a fixed precedence: forwarded ports, provider variables, node attributes, ansible_host derived from the host name or the management address, and device group variables for nodes with a secondary provider. Splitting the inventory into files loses nothing: exactly one host variables file is written for every node, and every variable is either in that file or in the inventory file. Group variables combine device, provider and topology values in this order, and the 'hosts' variable lists exactly the usable addresses of node interfaces.", "quantifier": "all lists of nodes with arbitrary data, all provider settings, device definitions and topology groups", "why_tests_cant": "Membership and precedence depend on the combination of node attributes, groups and providers; tests compare a few inventories with expected results.", "anchors": [{"file": "netsim/outputs/ansible.py", "symbols": ["create", "ansible_inventory_host", "provider_inventory_settings", "copy_provider_inventory", "copy_device_provider_group_vars", "get_host_addresses", "ansible_inventory"]}]}
{"id": "C103", "title": "Data type tests", "statement": "Testing the data type of a setting changes only that setting. A missing (or null) setting is replaced with the empty value unless the caller asked for something else, and Boolean values are replaced with the values specified for that data type (or removed). The resulting value is accepted if and only if the validator accepts it and the value after the transformation requested by the validator (or every element of a list) is one of the valid values. An accepted value is transformed, stored in the setting and returned to the caller; a rejected value stays unchanged and null is returned. Exactly one error is reported for values that are not accepted (none in silent or raw mode), and an exception is raised for those values if and only if the caller asked for it. Testing an accepted value again changes nothing. A setting that must be a list is a list after a successful test.", "quantifier": "every validator, set of test arguments, parent dictionary and key (without dots)", "why_tests_cant": "The result depends on the combination of the empty value, Boolean replacement values, transformations, valid values and abort/silent/raw modes with arbitrary validators.", "anchors": [{"file": "netsim/data/types.py", "symbols": ["type_test", "get_value_to_check", "post_validation", "check_valid_values", "must_be_list", "must_be_dict", "must_be_string"]}]}
{"id": "C104", "title": "Errors, warnings and hints", "statement": "Whatever sequence of errors, warnings and other calls a program makes, exit_on_error terminates it if and only if an error was reported: warnings and checks disabled in lab topology are never counted, and no error is lost. A program that reports only warnings is never terminated. Errors and warnings are displayed once, in the order they are reported, apart from warnings of quiet programs and disabled warnings; a warning disabled in lab topology has no effect at all. A hint, a static hint of a module, and the description of how to disable a warning are displayed at most once, and the user is told how to disable a warning the first time it's displayed. Repeated warnings are displayed in the order they were generated.", "quantifier": "every sequence of logging calls, with any text, category, module, hints, flags and topology settings", "why_tests_cant": "The error log, hints cache, static hints and warnings are global variables changed by every call; the properties range over all histories.", "anchors": [{"file": "netsim/utils/log.py", "symbols": ["error", "warning", "print_more_hints", "fatal", "exit_on_error", "repeat_warnings", "init_log_system"]}]}
{"id": "C105", "title": "Lab validation tests and external tools", "statement": "A lab validation test is accepted if and only if it has an action, does not mix actions (apart from show and exec), names the nodes it runs on (unless it's a wait or SuzieQ test), and has a validation expression exactly where one makes sense. Tests are turned into a list in their original order, every test knows its name, and its other attributes do not change. The devices a test can be used on (unless they are specified in the test) are exactly the devices with an action and a validation expression, in alphabetical order and without duplicates; a test without such a device is an error. External tools used in the lab are the tools from the lab topology and the tools enabled in system defaults; without an error every tool is known and has a runtime with a start command.", "quantifier": "every dictionary of tests with arbitrary attributes; every set of tool defaults and every set of tools in the lab topology", "why_tests_cant": "Tests are written by users as arbitrary combinations of attributes; unit tests use a few of the combinations.", "anchors": [{"file": "netsim/augment/validate.py", "symbols": ["validate_test_entry", "calculate_device_support", "process_validation"]}, {"file": "netsim/augment/tools.py", "symbols": ["validate_tool_attributes", "merge_tool_defaults", "copy_default_tools", "process_tools"]}]}
{"id": "C106", "title": "Plugins", "statement": "A plugin is the module found (following redirections) in the first directory of the plugin search path that has it; an error is reported if and only if a plugin is not found in any directory. Without errors the plugins are ordered so that no plugin is in front of a plugin it requires or has to be executed after. An action executes the function of every plugin that has it, in the order of plugins, once for every plugin, and the topology changed by a plugin is the input of the next one. The dependency check reports no errors if and only if the dependencies of every plugin are plugins or modules used in the lab topology.", "quantifier": "every set of plugin files, every search path, every list of plugins in the lab topology and system defaults, every set of dependencies and redirections", "why_tests_cant": "The execution order depends on the whole dependency graph; tests use a few plugins without dependencies.", "anchors": [{"file": "netsim/augment/plugin.py", "symbols": ["load_plugin_from_path", "init", "sort_plugins", "plugin_requires_check", "check_plugin_dependencies", "execute"]}]}
{"id": "C107", "title": "Topology versions, included files and CLI arguments", "statement": "A lab topology that specifies a version is accepted if and only if the version of netlab meets the requirement (a version without an operator is the minimum version). When there are several versions of a topology, the one with the highest version usable with the current netlab version is selected, regardless of the order of files in the directory; the original topology is used if and only if there is no such version. After including files no include request is left anywhere in the data; the contents of an included file is found under the name of the file, its out-of-scope settings are added but never change an existing scalar or list, and everything else is kept. CLI settings recognize integers and booleans; a CLI setting is stored in the topology, overrides everything specified before it, and does not change anything else; CLI plugins are added to topology plugins and provider options enable provider settings.", "quantifier": "every version library with a total order of versions, every set of versioned files in any order, every YAML data with include requests at any depth, every set of included files, every list of CLI arguments", "why_tests_cant": "The number of versions, their order in the directory, the depth of include requests and the number of CLI settings are unbounded.", "anchors": [{"file": "netsim/utils/versioning.py", "symbols": ["get_version_specifier", "check_topology_version", "get_versioned_topology"]}, {"file": "netsim/utils/read.py", "symbols": ["include_yaml", "transform_cli_value", "add_cli_args"]}]}
{"id": "C108", "title": "Device-specific adjustments of the transformed topology", "statement": "At the end of the transformation devices adjust their own data. A device warning is reported unless it has been disabled in device settings. A missing Ansible collection is reported exactly once per device type; the collection version used is the one from the first location. Junos: every interface has a unit (unit 0 is added when there is none), the physical interface and unit are the two unambiguous parts of its name, interface names in VRF OSPF data stay the same as those in node data, names stay distinct unless an interface already has the name another one gets with unit 0, renaming is idempotent; the MTU with headers is 22 bytes larger on interfaces with flexible VLAN tagging and 14 bytes larger on other physical interfaces; a VLAN master is marked exactly on unit 0 of physical interfaces carrying VLANs; a VRF is rejected exactly when it has more than one loopback. ArubaCX: VRF OSPF process IDs are distinct and between 2 and 63, with an error exactly when there are more than 62 VRFs; the first switch in an MLAG pair becomes primary and the other one secondary. VLAN 1 is never left tagged on a trunk without a native VLAN; reserved VLAN IDs are rejected; exactly the VLAN interfaces of EVPN/MPLS bundles are removed on EOS; Linux nodes lose the routing module exactly when they have only static routes; nodes with unknown devices become members of the unprovisioned group exactly once. Known violations: collection and cEOS versions are compared as text; an interface and its unit-0 subinterface get the same name on Junos.", "quantifier": "all lists of interfaces, VRFs, VLANs, nodes, collections and their versions, in any order", "why_tests_cant": "Tests run the quirks on a few sample topologies; uniqueness of names and IDs, role assignment in a pair and the reported-once rule have to hold for any number of nodes, VRFs and interfaces in any order.", "anchors": [{"file": "netsim/devices/__init__.py", "symbols": ["report_quirk", "need_ansible_collection", "get_ansible_collection", "process_quirks"]}, {"file": "netsim/devices/junos.py", "symbols": ["fix_unit_0", "check_multiple_loopbacks"]}, {"file": "netsim/devices/arubacx.py", "symbols": ["ARUBACX.device_quirks"]}, {"file": "netsim/devices/iosvl2.py", "symbols": ["vlan_1_tagged", "check_reserved_vlans"]}, {"file": "netsim/devices/nxos.py", "symbols": ["vlan_1_tagged", "check_reserved_vlans"]}, {"file": "netsim/devices/eos.py", "symbols": ["check_mlps_vlan_bundle", "check_mpls_clab"]}, {"file": "netsim/devices/linux.py", "symbols": ["check_routing_module"]}, {"file": "netsim/devices/unknown.py", "symbols": ["Unknown.device_quirks"]}, {"file": "netsim/devices/cumulus_nvue.py", "symbols": ["nvue_check_ospf_passive_in_vrf"]}]}
{"id": "C109", "title": "Module hooks, removal of modules, and node settings inherited by interfaces", "statement": "In every transformation stage the topology hook of every module in use, the node hook of every module used by a node, and the link hook of every module used by any node attached to the link are called (and nothing else): topology hooks before node hooks, node hooks before link hooks, each exactly once if modules are not listed twice. After modules are reordered (no module is lost) the hooks of a module are never called, for the topology or for a node, before those of a module it requires or has to follow; link hooks follow those of the required modules. Removing a module removes exactly its data from the node and all its interfaces. Interfaces inherit module settings from the listed VRF settings and the listed node settings, leaf by leaf: interface settings win over VRF settings, VRF settings win over node settings, and no other setting is copied; module data that is not a dictionary (disabled module) is never changed. Known violations: a module needed by a plugin that is also used by the topology has its topology hooks called twice; link hooks can be called before those of a module they have to follow but do not require; VRF settings are not inherited by modules without copied node settings; VRF module data set to true crashes the transformation.", "quantifier": "all sets of modules with any dependencies, nodes, links, interfaces, VRFs and nested module settings", "why_tests_cant": "The tests check results of complete transformations; order and exactly-once execution depend on the module lists of all nodes on a link, and inheritance on the structure of three nested sets of settings.", "anchors": [{"file": "netsim/modules/__init__.py", "symbols": ["module_transform", "node_transform", "link_transform", "reorder_node_modules", "remove_module", "copy_node_data_into_interfaces", "post_transform", "pre_transform"]}]}
{"id": "C110", "title": "Topology and BGP graphs show every link and session exactly once", "statement": "A topology graph contains exactly the links of the topology: a point-to-point link is a connection between its two nodes, any other link is a network with one connection for every attached node, and there are no other connections or networks. Unless AS clusters are used, every node is drawn exactly once. With AS clusters every node with an AS number is drawn in the cluster of its own AS and in no other one; with group clusters a node is drawn in the cluster of the first selected group it belongs to, and an error is reported exactly when a node would be in two clusters. No cluster is empty or drawn twice. D2 connections and D2 BGP sessions refer to nodes by the name they have in the cluster they're drawn in. In a BGP graph a session between two different nodes that list each other as neighbors is drawn once and in one direction only; with route-reflector arrows the arrow points from the route reflector to its client.", "quantifier": "every list of nodes, AS numbers, groups, selected groups, links, attached nodes and BGP neighbors", "why_tests_cant": "the graph depends on the combination of clusters, groups, AS numbers and link types of the whole topology; tests compare no graph outputs beyond a few samples", "anchors": [{"file": "netsim/outputs/graph.py", "symbols": ["build_maps", "add_groups", "graph_clusters", "graph_topology", "bgp_session", "graph_bgp"]}, {"file": "netsim/outputs/d2.py", "symbols": ["build_maps", "add_groups", "graph_clusters", "graph_topology", "bgp_session", "graph_bgp"]}]}
{"id": "C111", "title": "Plugins: bonding, originated prefixes, proxy ARP, VRRP version, shared VTEP addresses, missing configurations and multilab changes", "statement": "bonding: physical interfaces on two-node links with the same bond index become members of a single bond with the addresses, mode and neighbors of the first member; members lose addresses, VLANs and gateways, all other interfaces stay the same; every bond becomes a new interface with a unique interface index; errors are reported exactly for interfaces that cannot be bonded. bgp.originate: every entry of the originate list of a BGP node becomes one advertised loopback with the requested prefixes and the next link index. proxy-arp: the flag is set exactly on addressed LAN, point-to-point and VLAN interfaces in VRFs with the attribute. vrrp.version: exactly the nodes using VRRP get the configuration, or an error when the device does not support it. mlag.vtep: every VXLAN node on an MLAG peer link gets the address of that peer link, and nodes share an address only if they share a peer link. check.config: only missing custom configurations are reported and removed. multilab: format strings in changes are evaluated at any depth, changed dictionaries are merged, lists are appended, other values are replaced, everything else stays the same.", "quantifier": "every list of nodes, interfaces, links, bond indices, originate lists, VRFs, custom configurations, and every nested set of changes", "why_tests_cant": "the plugins work on complete transformed topologies; integration tests contain one or two sample topologies per plugin", "anchors": [{"file": "netsim/extra/bonding/plugin.py", "symbols": ["add_bond_interfaces", "update_neighbors", "post_link_transform"]}, {"file": "netsim/extra/bgp.originate/plugin.py", "symbols": ["post_node_transform"]}, {"file": "netsim/extra/proxy-arp/plugin.py", "symbols": ["post_transform"]}, {"file": "netsim/extra/vrrp.version/plugin.py", "symbols": ["post_transform"]}, {"file": "netsim/extra/mlag.vtep/plugin.py", "symbols": ["pre_link_transform"]}, {"file": "netsim/extra/check.config/plugin.py", "symbols": ["cleanup"]}, {"file": "netsim/extra/multilab/__init__.py", "symbols": ["eval_changed_parameters", "merge_changes", "init"]}]}
{"id": "C112", "title": "Validation tests of neighbors, prefixes, routes and pings pass exactly when the device printout says so", "statement": "For every printout returned by a device and every set of test parameters: a BGP neighbor test passes exactly when the neighbor (identified by the first listed address in the address family, or the interface of an unnumbered session) is among the peers with the expected state; with default parameters that means the session is established.  An OSPF, OSPFv3 or IS-IS neighbor test passes exactly when the first adjacency with that neighbor is full/up (and has the expected level and area), and a test of an unexpected neighbor passes exactly when there is no adjacency with it.  An OSPF, IS-IS or routing table prefix test passes exactly when the table has the prefix with the expected cost, type or metric.  A ping test passes exactly when the printout has a reply of the expected size; a Linux route test passes exactly when the routing table has a line matching the prefix and the interface.  Known exceptions: a missing FRR route test passes when the route is present; missing-neighbor tests fail when the router has no peers; only the first of parallel adjacencies counts; a ping with 10 received replies counts as failed; a missing-route test on Linux fails without a wait time; a test of a missing prefix with two attributes looks only at the first one.", "quantifier": "all printouts (any number of peers, adjacencies, areas, circuits, prefixes, routes, lines) and all test parameters", "why_tests_cant": "Validation functions are exercised only against live devices; no unit test covers every printout a device could produce.", "anchors": [{"file": "netsim/validate/_common.py", "symbols": ["get_bgp_neighbor_id"]}, {"file": "netsim/validate/bgp/frr.py", "symbols": ["valid_bgp_neighbor", "valid_bgp_neighbor_details"]}, {"file": "netsim/validate/bgp/eos.py", "symbols": ["valid_bgp_neighbor", "check_vrf_data"]}, {"file": "netsim/validate/ospf/frr.py", "symbols": ["valid_ospf_neighbor", "valid_ospf6_neighbor", "valid_ospf_prefix", "valid_ospf6_prefix", "valid_ipv6_route"]}, {"file": "netsim/validate/ospf/eos.py", "symbols": ["valid_ospf_neighbor", "valid_ospf_prefix"]}, {"file": "netsim/validate/isis/frr.py", "symbols": ["valid_isis_neighbor", "valid_isis_prefix"]}, {"file": "netsim/validate/route/frr.py", "symbols": ["valid_rt_prefix"]}, {"file": "netsim/validate/linux.py", "symbols": ["valid_ping", "exec_route", "valid_route", "valid_default6"]}, {"file": "netsim/validate/eos.py", "symbols": ["valid_ping"]}]}
{"id": "C113", "title": "Names, prefixes and data exported from groups", "statement": "Identifiers made from any text contain only letters, digits and underscores, and a text that starts with a letter or an underscore keeps its first character (an identifier does not change); the name of a topology made from the name of its directory has at most twelve such characters. A prefix given as a dictionary is parsed item by item: Boolean values and attributes that are not address families are kept, other values of address families must be IP prefixes, and one value that is not a prefix makes the whole prefix empty and reports an error; `ip` is another name for `ipv4`, and they can't be used together; a text is a named prefix or an IPv4 prefix. A VLAN or VRF used in groups gets each attribute that can be copied from the topology, or from the first group that defines it, and there are no errors exactly when all groups agree with that value. Links get the right number of nodes, hosts and routers, once. The final cleanup removes address generators from pools and settings from groups, and nothing else.", "quantifier": "all texts, directory names, prefixes, parsers of IP prefixes, lists of groups, global objects, lists of attributes, links and nodes", "why_tests_cant": "tests use a few names, prefixes and groups; the characterisations hold for all of them", "anchors": [{"file": "netsim/utils/strings.py", "symbols": ["make_id"]}, {"file": "netsim/augment/topology.py", "symbols": ["topology_init", "cleanup_topology"]}, {"file": "netsim/augment/addressing.py", "symbols": ["parse_prefix"]}, {"file": "netsim/augment/groups.py", "symbols": ["export_group_node_data", "cleanup"]}, {"file": "netsim/augment/links.py", "symbols": ["count_link_nodes"]}]}
{"id": "C114", "title": "Commands executed on lab devices, in tools and on the host", "statement": "The settings used to connect to a lab device have the right values: forwarded ports shifted by the node ID come first, then the inventory settings of the provider, the attributes of the node, its host name or management address, and the group variables of the device. Parameters of a show command are never lost: every `$@` in the device-specific command is replaced with all of them (and nothing else changes), or they are added after it; a command and a show command can't be used together. SSH sessions use the user, password, key and port of the device, and the command follows the host name; container commands are executed with the shell of the device or with bash; an unknown connection method is a fatal error. A host command is started unless it's empty, it's a dry run or CLI is being debugged; its result is true exactly when it ends without an error (and has some output when that's checked); `netlab up --validate` reports failures and warnings. A probe is successful exactly when all its commands are successful; the status of a provider is OK, N/A or FAIL accordingly.", "quantifier": "all nodes, group variables, provider settings, commands, command templates, connection parameters, exit codes and outputs, nested probes", "why_tests_cant": "tests never execute external commands and check a handful of inventories; the claims hold for all commands, results and probes", "anchors": [{"file": "netsim/outputs/common.py", "symbols": ["adjust_inventory_host", "provider_inventory_settings", "add_group_vars"]}, {"file": "netsim/cli/connect.py", "symbols": ["docker_connect", "ssh_connect", "create_show_command", "create_command_list", "connect_to_node", "connect_to_tool"]}, {"file": "netsim/cli/external_commands.py", "symbols": ["run_command", "test_probe"]}, {"file": "netsim/cli/show_commands/providers.py", "symbols": ["get_provider_status"]}, {"file": "netsim/cli/up.py", "symbols": ["run_up"]}]}
{"id": "C115", "title": "Execution of validation tests: commands, results, delays and selection of tests", "statement": "The command of a validation test is the value for the device (or the value for all devices, or the result of the validation plugin when the test has no such action); a text is split into words, a list is used as it is, a text with `{{` is rendered first and it's a fatal error when it cannot be rendered; a plugin failure is reported and nothing is executed. The printout of a device is parsed from the first `[` or `{` to its end without trailing whitespace, as a list or as an object, and a test gets data exactly when its command was successful and returned valid data. A test is executed no earlier than its wait time after the start of the lab, without a delay when that time has passed; the wait time is never shortened, it's extended to the longest time needed by the devices, and the first wait time is extended with the longest initial delay. With selected nodes only the tests executed on at least one of them are executed, only on selected nodes; unknown nodes, or no test left, are errors.", "quantifier": "all test actions, plugin results, printouts, wait times, clocks, devices, tests and node selections", "why_tests_cant": "netlab tests never execute validation tests; the claims hold for all texts, times and selections", "anchors": [{"file": "netsim/cli/validate.py", "symbols": ["get_entry_value", "get_exec_list", "parse_JSON", "get_parsed_result", "get_suzieq_result", "wait_before_testing", "extend_first_wait_time", "extend_device_wait_time", "filter_by_nodes"]}]}
{"id": "C116", "title": "Addresses are unique in the whole lab", "statement": "All addresses netlab takes from address pools -- loopback addresses of all nodes and addresses of all interfaces attached to all links, in IPv4 and in IPv6 -- are different when the links were addressed without errors, node identifiers are different and the address pools used in the lab don't overlap, no matter what else was taken from the pools. The prefix of a link comes from the first existing pool among the pool specified with the link (or the link role) and the pools for the link type; an unknown pool or no usable pool is an error. A link with its own IPv4 or IPv6 prefix keeps it and takes nothing from the pools. Assigned addresses belong to the link prefix of the same address family; the gateway address belongs to it as well and no interface has the same address.", "quantifier": "all address pools, node lists, link lists, allocation policies, interface attributes and histories of prefix allocation", "why_tests_cant": "tests compare a few transformed topologies; uniqueness has to hold for every set of pools, every number of nodes and links, and every order of allocations", "anchors": [{"file": "netsim/augment/links.py", "symbols": ["transform", "assign_link_prefix", "assign_interface_addresses", "set_fhrp_gateway", "check_duplicate_address"]}, {"file": "netsim/augment/addressing.py", "symbols": ["get", "get_pool_prefix", "get_pool"]}, {"file": "netsim/augment/nodes.py", "symbols": ["loopback_interface"]}]}
{"id": "C117", "title": "Completed and interrupted lab commands leave a lab that can be cleaned up or restarted", "statement": "A command executed without interruption always ends, and changes nothing but its own lab instance and its own directory. A completed 'netlab up' (with at least one provider, in a directory that isn't locked or from a snapshot, with a lab instance not used elsewhere) leaves the lab running, the directory locked and the instance recorded as started with exactly the providers of the lab; a completed 'netlab down' that stopped the lab leaves no status entry, no lock and no running lab. Wherever a command is interrupted -- after any number of its steps, including in the middle of a status file update -- 'netlab down' in the same directory still cleans up the lab, and 'netlab up --snapshot' restarts it; other labs keep their entries unless the interruption happened while the status file was being written. The same is true after any history of commands, completed or interrupted anywhere. 'netlab up' followed by 'netlab down' is an identity on the status file, locks and running labs.", "quantifier": "all states of the system without a command being executed, all commands and their options, all interruption points, all histories of events", "why_tests_cant": "the interruption can happen at any step of any command after any history; tests never interrupt commands and use a single lab", "anchors": [{"file": "netsim/cli/up.py", "symbols": ["run_up", "lab_status_start", "check_lab_instance"]}, {"file": "netsim/cli/down.py", "symbols": ["run", "lab_dir_mismatch", "stop_all"]}, {"file": "netsim/utils/status.py", "symbols": ["change_status", "lock_directory", "unlock_directory", "remove_lab_status"]}]}
{"id": "C118", "title": "Interface names are unique on a node", "statement": "On every supported device, two different interfaces of a node -- physical interfaces, loopbacks, tunnels, LAGs, VLAN interfaces and VLAN subinterfaces -- have different names, every interface type the device supports gets a name, and the management interface doesn't share the name with any interface used in the lab. Interfaces created from lab links have different names (none of them the name of the management interface) unless the user specified an interface name or an interface index that's already used. Interfaces of containers have different names and none of them is eth0. The host-side names of links between containers and bridges are unique (and not too long) across all multilab instances, and unique within a lab when node names have at most ten characters.", "quantifier": "all devices and daemons supported by netlab (and any device with name templates that pass a simple check), all interface numbers, VLANs and bridge groups, all lists of links", "why_tests_cant": "names depend on numbers that can have any value; tests contain a few interfaces on a few devices", "anchors": [{"file": "netsim/utils/strings.py", "symbols": ["eval_format"]}, {"file": "netsim/augment/links.py", "symbols": ["create_regular_interface", "create_virtual_interface"]}, {"file": "netsim/modules/vlan.py", "symbols": ["create_vlan_interfaces", "rename_vlan_subinterfaces"]}, {"file": "netsim/augment/nodes.py", "symbols": ["augment_mgmt_if"]}, {"file": "netsim/templates/provider/clab/clab.j2", "symbols": ["endpoints"]}]}
{"id": "C119", "title": "Additions to a lab topology do not change the existing lab", "statement": "When nodes and links are added at the end of a lab topology, every existing node keeps its identifier, loopback addresses and interfaces (index, name, addresses and neighbors, in the same order), every existing link keeps its prefix and the addresses of attached nodes, and prefixes allocated for other purposes do not change -- provided the transformation of both topologies succeeds, new nodes do not use node identifiers already used in the lab, and loopbacks of new nodes do not use address pools that supply link prefixes. VLANs added at the end of the list of global VLANs, and VLANs of added nodes, do not change identifiers of existing global VLANs as long as they do not use the same identifiers, and adding nodes does not change VLAN identifiers of other nodes. The same holds for VXLAN network identifiers (VNIs) of VLANs, and for identifiers and route distinguishers of VRFs as long as new VRFs do not specify the numbers used in identifiers or route distinguishers of existing VRFs.", "quantifier": "all node and link lists, all additions, all address pools, all reserved identifiers, all devices, all VLAN dictionaries, all VRF dictionaries", "why_tests_cant": "relates the results of two transformations of arbitrarily large topologies; tests look at a single topology at a time", "anchors": [{"file": "netsim/augment/nodes.py", "symbols": ["transform", "reserve_id", "loopback_interface"]}, {"file": "netsim/augment/links.py", "symbols": ["transform", "assign_link_prefix", "assign_interface_addresses", "create_node_interfaces"]}, {"file": "netsim/augment/addressing.py", "symbols": ["get", "get_pool_prefix"]}, {"file": "netsim/modules/vlan.py", "symbols": ["populate_vlan_id_set", "validate_vlan_attributes", "node_pre_transform"]}, {"file": "netsim/modules/_dataplane.py", "symbols": ["get_next_id"]}, {"file": "netsim/modules/vrf.py", "symbols": ["set_vrf_ids", "get_next_vrf_id", "populate_vrf_static_ids"]}, {"file": "netsim/modules/vxlan.py", "symbols": ["assign_vni", "register_static_vni"]}]}
{"id": "C120", "title": "Endpoints of BGP sessions are unique and directly connected", "statement": "In a lab where no two interfaces have the same address -- which is always the case when all addresses come from address pools that do not overlap and no errors are reported -- all BGP neighbors of a node have different addresses in every address family, no node is its own BGP neighbor, and the address of a BGP neighbor is configured on exactly one node in the lab: the node the session was created for. Sessions that are not IBGP sessions between loopbacks connect two interfaces attached to the same link, the address of the neighbor is the address of the remote interface, and when the addresses on the link are assigned by netlab, the addresses of both interfaces belong to the prefix of the link. This holds for nodes connected to a link with a single interface and for IBGP sessions with nodes that have a loopback interface.", "quantifier": "all lab topologies without VLANs, all address pools, all BGP attributes of nodes and interfaces, all nodes", "why_tests_cant": "the result depends on the interaction of node identifiers, address pools, link addressing, neighbor lists and BGP sessions in arbitrarily large labs", "anchors": [{"file": "netsim/modules/bgp.py", "symbols": ["build_bgp_sessions", "build_ibgp_sessions", "build_ebgp_sessions", "bgp_neighbor", "get_remote_ibgp_endpoint"]}, {"file": "netsim/augment/links.py", "symbols": ["create_node_interfaces", "assign_interface_addresses"]}, {"file": "netsim/augment/nodes.py", "symbols": ["transform", "loopback_interface"]}]}
{"id": "C121", "title": "Both ends of BGP sessions agree", "statement": "Every BGP session created by netlab has a counterpart: if a node gets an EBGP session (or a session with a local AS) with a neighbor over an interface, then the neighbor gets a session with that node, both sessions run over the interfaces attached to the same link, each node uses the address of the other node's interface, both sessions have the same type, and the AS number a node expects from its neighbor is the AS number the neighbor uses in that session (including local AS numbers). Likewise, every IBGP session has a counterpart, each session goes to the loopback address of the other node, both nodes are in the same AS, and each session tells whether the other node is a route reflector. This holds for labs created without errors, for nodes connected to a link with a single interface, and for nodes that use the default (same) address families for their sessions.", "quantifier": "all lab topologies without VLANs, all address pools, all BGP attributes of nodes and interfaces, all sessions of all nodes", "why_tests_cant": "a session works only if two independently generated data structures match; they depend on attributes of nodes, links and interfaces, and on the order of nodes and links in arbitrarily large labs", "anchors": [{"file": "netsim/modules/bgp.py", "symbols": ["build_ebgp_sessions", "build_ibgp_sessions", "bgp_neighbor"]}, {"file": "netsim/augment/links.py", "symbols": ["create_node_interfaces"]}]}
{"id": "C122", "title": "Router identifiers are unique in the whole lab", "statement": "Nodes of a lab never share a router identifier: whatever the sequence in which routing protocols ask for router identifiers of nodes, and whatever else is allocated from address pools, the router identifiers used by any routing protocols on two different nodes are different, regardless of whether they were copied from IPv4 loopback addresses or allocated from the router_id pool. This holds when router identifiers and IPv4 loopback addresses are not specified in the lab topology, and when the router_id pool and the pools used for loopback addresses are the same, do not overlap, or (like the default loopback and router_id pools) use the same IPv4 prefix to allocate /32 prefixes exclusively based on node identifiers.", "quantifier": "all address pools, all sets of nodes with unique node identifiers, all sequences of routing protocols, nodes and address pool requests", "why_tests_cant": "router identifiers come from two independent sources that use the same prefix by default; they're unique only because every request is tied to the node identifier, whatever the order of requests", "anchors": [{"file": "netsim/modules/_routing.py", "symbols": ["router_id"]}, {"file": "netsim/augment/addressing.py", "symbols": ["get", "get_nth_subnet", "create_pool_generators"]}, {"file": "netsim/augment/nodes.py", "symbols": ["loopback_interface"]}]}
{"id": "C123", "title": "Lab cleanup removes the right files and can be repeated", "statement": "'netlab down --cleanup' removes the directories of tools used in the lab, the files and directories used by the lab provider and its secondary providers, the Ansible files and the snapshot of the lab topology, and nothing else; nothing is removed in dry-run mode. The snapshot is removed last: wherever the cleanup fails or is interrupted (including in the middle of the removal of a directory tree), the snapshot is still there unless everything else was removed, and repeating the command (if nothing goes wrong the second time, and if the files are not symbolic links) removes everything. Commands that use the snapshot display a warning about a modified source file exactly when an existing input file was modified after the snapshot was created.", "quantifier": "all file systems, all lists of files to clean up, tools and providers, all failures and points of interruption, all modification times of input files", "why_tests_cant": "removal of files can fail or be interrupted anywhere; tests run only complete cleanups of a few labs", "anchors": [{"file": "netsim/cli/down.py", "symbols": ["down_cleanup", "tool_cleanup", "run"]}, {"file": "netsim/cli/__init__.py", "symbols": ["fs_cleanup", "load_snapshot", "check_modified_source"]}]}
{"id": "C124", "title": "The result does not depend on the order of Python sets", "statement": "Transforming the same topology again (in a process with a different hash seed) gives the same result where the program iterates over sets: lists made from sorted sets depend only on the elements; route reflector cluster IDs do not depend on the order in which autonomous systems are processed; VRF identifiers and route distinguishers on all nodes, and the errors, do not depend on the order in which VRFs used by VLANs are visited when those VRFs are defined in the topology or in the node; prefixes, forwarding modes and member links of a link with VLANs do not depend on arbitrary choices from sets when it has one access and one native VLAN and they are global; the topology-wide list of custom configurations (or the error) is the same when every two configurations appear on a common node.", "quantifier": "every two iteration orders of each of the sets, every set of VRF definitions, nodes, links and configuration lists", "why_tests_cant": "Python randomises the hash of strings for every process: a test run sees one iteration order, and small sets often happen to be iterated in the expected one.", "anchors": [{"file": "netsim/modules/vrf.py", "symbols": ["node_pre_transform", "set_vrf_ids"]}, {"file": "netsim/modules/bgp.py", "symbols": ["build_bgp_rr_clusters"]}, {"file": "netsim/modules/vlan.py", "symbols": ["get_link_access_vlan", "set_link_vlan_prefix", "link_pre_transform"]}, {"file": "netsim/augment/plugin.py", "symbols": ["sort_extra_config"]}]}
{"id": "C125", "title": "The ends of a link agree on routing protocol adjacency", "statement": "Nodes attached to a link and running the same IGP (OSPF or IS-IS) get matching protocol settings on their interfaces unless interfaces are configured individually: the protocol runs on both ends or on none (none if the link is external or the protocol is disabled on the link), both interfaces are passive or none of them is (only if requested on the link, or if the link is passive or has the stub type; a stub role does not make them passive), they have the same network type (point-to-point exactly on links with two nodes, unless set on the link), and they have the same area, timers and other attributes if these are set on the link or if the nodes have the same defaults.", "quantifier": "every link with any number of nodes, any link, interface and node attributes, every list of copied attributes in system defaults", "why_tests_cant": "The two ends are processed separately, from different nodes, and by three different functions; tests compare the result for selected topologies and not the relation between the ends.", "anchors": [{"file": "netsim/augment/links.py", "symbols": ["create_node_interfaces", "interface_data", "get_link_propagate_attributes"]}, {"file": "netsim/modules/__init__.py", "symbols": ["copy_node_data_into_interfaces"]}, {"file": "netsim/modules/_routing.py", "symbols": ["external", "passive", "network_type", "is_true_stub", "remove_unaddressed_intf"]}, {"file": "netsim/modules/ospf.py", "symbols": ["OSPF.node_post_transform"]}]}
{"id": "C126", "title": "VRFs of a VPN are connected and different VPNs are isolated", "statement": "In a lab processed without errors: (1) two VRFs of the same global VRF for which the user wrote no route targets accept each other's routes, on whatever nodes, in whatever autonomous systems and with whatever RDs; (2) if the user wrote neither an RD for a VPN nor export route targets for its VRF, a VRF of another VPN accepts its routes if and only if one of the import route targets written for that other VRF means the RD of the VPN (so VRFs without import route targets are isolated); (3) writing the name of a global VRF in the import route targets makes the VRF accept all the routes of that VPN. Isolation needs global VRFs: without them a static RD of a node VRF can equal an automatic RD of another VRF and routes leak (proved), and VRFs with the same name defined in nodes are not connected (proved).", "quantifier": "all VRF definitions (global and node), all nodes, AS numbers, static identifiers, RDs and route targets, all pairs of VRFs", "why_tests_cant": "Leaking between VPNs depends on the combination of all identifiers in the lab and on the order of allocation; a test checks a few labs, the property is about every pair of VRFs in every lab.", "anchors": [{"file": "netsim/modules/vrf.py", "symbols": ["set_vrf_ids", "set_import_export_rt", "normalize_vrf_ids", "get_next_vrf_id", "parse_rdrt_value", "module_pre_transform", "node_pre_transform"]}]}
{"id": "C127", "title": "Static VXLAN flooding lists form a full mesh", "statement": "After the VXLAN transformation: (1) two nodes of the same VXLAN domain that use static flooding lists and a VLAN with the same VNI have each other's VTEP address in the flooding list of that VLAN, unless they share the VTEP address; (2) every address in the flooding list of a VLAN is the VTEP of another node of the same domain that uses the VNI, and if that node uses static flooding too, all its lists for that VNI include the VTEP of the first node. A node using EVPN has no list but is still flooded to by the nodes with static lists (proved).", "quantifier": "all lists of nodes, VXLAN domains, VLANs and VNIs, VTEP addresses (shared or not), IPv4 and IPv6 VTEPs", "why_tests_cant": "Flooding is correct only if it is symmetrical between every pair of nodes; tests compare the lists of a few labs.", "anchors": [{"file": "netsim/modules/vxlan.py", "symbols": ["build_vtep_list", "node_set_vtep", "module_post_transform"]}]}
{"id": "C128", "title": "Both ends of a link use the same VLAN tags", "statement": "If the VLANs of a lab are accepted: (1) the VLAN identifier configured on an interface in a VLAN (a bridged interface or a VLAN subinterface) is the identifier assigned to that VLAN; (2) interfaces of any two nodes in the same global VLAN have the same identifier; interfaces in different VLANs have different identifiers when one of the identifiers is automatic; (3) the identifiers on a trunk are those of its VLANs in the same order, so a global VLAN has the same tag at both ends of a trunk; (4) all interfaces of an accepted link with a global access VLAN have the same identifier. VLANs with the same name defined in two nodes can have different tags on an accepted link (proved).", "quantifier": "all VLAN definitions (global and node, static and automatic identifiers), all nodes, interfaces, access VLANs and trunks", "why_tests_cant": "Tags are assigned in one pass, copied into nodes in another one and written to interfaces node by node; agreement between every pair of ends of every link is a property of all topologies.", "anchors": [{"file": "netsim/modules/vlan.py", "symbols": ["validate_vlan_attributes", "populate_node_vlan", "create_node_vlan", "create_svi_interfaces", "map_trunk_vlans", "validate_link_vlan_attributes"]}]}
{"id": "C129", "title": "Automatic addressing of a link fails only when the prefix is too small", "statement": "In a lab whose nodes have identifiers (assigned or static), consider any link between different nodes without static addresses and without an explicit addressing policy. If the (non-multicast) prefix has more than two addresses and enough of them for the nodes and the first-hop gateway, every node gets an address of the prefix that is neither the subnet nor the broadcast address, no two nodes have the same address, no node has the gateway address, and the duplicate address check reports nothing. The gateway identifier must be global or specified on a link or in a global VLAN (others are not reserved before node identifiers are assigned, and the gateway can get the address of a node, which is reported as a duplicate).", "quantifier": "all labs, static and automatic node identifiers, gateway identifiers counted from either end of the prefix, prefixes and sets of nodes on the link", "why_tests_cant": "it is a claim about the interaction of four mechanisms (identifier assignment, gateway reservation, policy selection, numbering) for every lab and prefix size", "anchors": [{"file": "netsim/augment/links.py", "symbols": ["assign_interface_addresses", "get_prefix_IPAM_policy", "check_duplicate_address", "set_fhrp_gateway"]}, {"file": "netsim/augment/nodes.py", "symbols": ["transform", "reserve_id"]}, {"file": "netsim/modules/gateway.py", "symbols": ["process_gw_id"]}]}
{"id": "C130", "title": "Resources of the lab host are created, used and cleaned up correctly", "statement": "Starting containers creates exactly the bridges of links with more than two nodes that are not external bridges; all other bridges of the host are in the same state at any moment during the start or stop of a lab, whatever commands fail. If the host had no bridges with these names, stopping the lab restores the original bridges no matter where the start was interrupted (an existing bridge with the same name is used, and removed when the lab is stopped). modprobe is executed exactly for kernel modules that are needed by containers and not loaded, and an error is reported exactly when one of them cannot be loaded. A missing container image is reported once, exactly when the first node using it has a device with a build recipe; an installed Vagrant box is never reported as missing (a box with a similar name may be accepted). The libvirt management network is never changed while virtual machines are running, a permanent one is never changed, and other libvirt networks are never touched.", "quantifier": "all sets of links, orders of bridge operations, failing commands, interruption points, states of the host, kernel module settings, nodes and images", "why_tests_cant": "the claim ranges over every interruption point and every combination of failing host commands; tests do not run host commands at all", "anchors": [{"file": "netsim/providers/clab.py", "symbols": ["list_bridges", "create_linux_bridge", "destroy_linux_bridge", "create_ovs_bridge", "load_kmods", "pre_start_lab", "post_stop_lab", "validate_node_image"]}, {"file": "netsim/providers/libvirt.py", "symbols": ["validate_node_image", "create_vagrant_network"]}, {"file": "netsim/providers/__init__.py", "symbols": ["validate_images"]}]}
{"id": "C131", "title": "Combinations of features that a device does not support are reported", "statement": "At the end of the transformation every node is checked for combinations of features that do not work on its device (documented caveats: IS-IS on point-to-point links of Cisco ASA, STP on FRR trunks, VRRP on BVI interfaces of IOSv, reserved VLANs on Cisco switches, OSPF or VRRP on virtual networks of Dell OS10, OSPF on incompatible loopbacks of Cumulus NVUE, anycast gateways or DHCP clients on cEOS, MPLS on a fixed SR Linux switch, ...). Unless the warnings have been disabled an error is reported exactly when the node uses such a combination; disabling warnings never adds an error, and several of the checks cannot be disabled. Checks change only what they have to: OSPF settings of compatible NVUE loopbacks are merged with the primary loopback, OSPF network type is changed on IPv4 stub interfaces of cEOS containers, the cEOS configuration file is mapped exactly once, and Cumulus switches sharing a VTEP point to each other.", "quantifier": "all nodes, lab topologies and device settings", "why_tests_cant": "The checks depend on combinations of device, provider, modules, interfaces, VRFs, VLANs and data of other nodes; tests contain a few integration topologies per device.", "anchors": [{"file": "netsim/devices/asav.py", "symbols": ["check_isis_p2p_interfaces"]}, {"file": "netsim/devices/frr.py", "symbols": ["check_stp_on_trunks"]}, {"file": "netsim/devices/iosv.py", "symbols": ["check_vrrp_bvi", "vlan_1_subinterface"]}, {"file": "netsim/devices/dellos10.py", "symbols": ["check_vlan_ospf", "check_anycast_gateways", "check_pvrst_on_virtual_networks", "check_vrrp_on_virtual_networks", "check_expanded_communities"]}, {"file": "netsim/devices/cumulus.py", "symbols": ["check_ospf_vrf_default"]}, {"file": "netsim/devices/cumulus_nvue.py", "symbols": ["nvue_check_stp_features", "nvue_check_ospfv3", "nvue_check_native_routed_on_mixed_trunk", "nvue_merge_ospf_loopbacks", "mark_shared_mlag_vtep"]}, {"file": "netsim/devices/eos.py", "symbols": ["check_mlps_vlan_bundle", "check_shared_mac", "check_dhcp_clients", "configure_ceos_attributes", "passive_stub_interfaces"]}, {"file": "netsim/devices/srlinux.py", "symbols": ["device_quirks", "check_prefix_deny"]}, {"file": "netsim/devices/unknown.py", "symbols": ["check_clab_device_kind"]}, {"file": "netsim/devices/_common.py", "symbols": ["check_indirect_static_routes"]}, {"file": "netsim/devices/junos.py", "symbols": ["check_evpn_ebgp"]}, {"file": "netsim/devices/__init__.py", "symbols": ["process_quirks", "report_quirk"]}]}
{"id": "C132", "title": "Hosts reach every address pool through a gateway", "statement": "Every host without its own static routes gets a static route through its gateway for every IPv4 and IPv6 prefix of every address pool (apart from the management and router ID pools) or for every entry of the list of static routes for hosts, exactly in the address families it uses, apart from IPv6 on devices listening to router advertisements and address families in which one of its interfaces is a DHCP client; no other node changes, and the routing module is added exactly to those hosts and to the topology. The final routes of the host cover a pool prefix if and only if the host has a gateway in that address family: one configured on an interface or its neighbors, or (when no gateway is configured for any address family) an adjacent router with a static address; a default route never causes an error. Defects: an IPv4-only gateway on the link removes the IPv6 routes of a dual-stack host; the program fails with an exception when a host has two DHCP client interfaces in the same address family.", "quantifier": "all topologies: nodes, roles, address families, DHCP clients, servers and relays, pools, interfaces, neighbors and configured gateways", "why_tests_cant": "depends on the combination of DHCP clients, router advertisements, gateways and neighbors on any number of interfaces; tests use a few topologies with a single host interface", "anchors": [{"file": "netsim/augment/nodes.py", "symbols": ["default_static_route_list", "add_host_static_routes"]}, {"file": "netsim/modules/routing.py", "symbols": ["resolve_gateway_nexthop", "create_gateway_last_resort", "check_static_routes"]}]}
{"id": "C133", "title": "External tools are started and stopped with the right commands, and lab status is reported correctly", "statement": "'netlab up' executes, for every tool of the lab and in the order of the tools, exactly the commands of the tool: settings in the lab topology override system defaults, settings of the tool override settings of its runtime; 'netlab down' executes the commands stopping the tools in the same way; no command is executed with '--no-tools' or for a tool without data for its runtime. Every command is formatted with the Docker network (when containers are used), the address of the lab host and the parameters of the tool, regardless of the tools started before it. When the tools of a topology are accepted, the runtime of every tool is known and the tool has a starting command. 'netlab status' selects the instance requested by the user or the one started from the current directory, and displays a row for every node and tool with the status Docker or Vagrant report for its container or VM.", "quantifier": "all lab topologies with unique keys, all sets of tools and tool settings (at any level), all status files, all printouts of Docker and Vagrant", "why_tests_cant": "Tests start one tool with its default settings; the claim is about all combinations of settings in four places, about data left behind by tools started earlier, and about all printouts.", "anchors": [{"file": "netsim/cli/external_commands.py", "symbols": ["get_tool_runtime_param", "get_tool_command", "docker_is_used", "execute_tool_commands", "get_local_addr", "get_tool_message"]}, {"file": "netsim/cli/up.py", "symbols": ["start_external_tools"]}, {"file": "netsim/cli/down.py", "symbols": ["stop_external_tools"]}, {"file": "netsim/cli/status.py", "symbols": ["get_instance", "show_lab_nodes", "get_lab_status"]}, {"file": "netsim/providers/libvirt.py", "symbols": ["get_lab_status"]}, {"file": "netsim/providers/clab.py", "symbols": ["get_lab_status", "get_node_name"]}]}
{"id": "C134", "title": "Networks of libvirt labs are correct", "statement": "The definition of the libvirt management network created from a lab topology has the name of the network and bridge specified by the user (or the default names), the first address and the mask of the management subnet, a dynamic range ending just before the addresses assigned to nodes, and the MAC-to-IP binding of every node, for every subnet with more than two addresses. Public links always have an uplink, links with an uplink always have a public mode, other providers on the link use the same uplink, and links connecting nodes of several providers become LAN links with distinct bridge names while other links do not change. When the lab starts without errors, every libvirt network used by a link has been mapped to its Linux bridge, which forwards LLDP and does not run spanning tree; nothing is changed on other bridges. A packet capture uses the interface selected by the user and the VM interface attached to the same network, and never any other interface.", "quantifier": "all management subnets, starting addresses and node lists; all lists of links, node providers and lab names; all results of virsh and bridge commands; all printouts of 'virsh domiflist'", "why_tests_cant": "Tests never start a libvirt network; the result of a sequence of text substitutions depends on whether the addresses of one substitution are changed by the next one, for every subnet.", "anchors": [{"file": "netsim/providers/libvirt.py", "symbols": ["replace_xml_mgmt_subnet", "create_network_template", "Libvirt.pre_transform", "Libvirt.post_start_lab", "Libvirt.capture_command", "get_linux_bridge_name"]}, {"file": "netsim/providers/__init__.py", "symbols": ["_Provider.pre_transform"]}, {"file": "netsim/cli/capture.py", "symbols": ["run"]}, {"file": "netsim/templates/provider/libvirt/vagrant-libvirt.xml", "symbols": []}]}
{"id": "C135", "title": "Files generated for containers come from the right templates", "statement": "The files generated for a container are exactly the requested files that are not already mapped by the user and have a template; each one is generated in the directory of the node from the first existing template in the documented order (custom configuration directories for custom configurations; otherwise user templates, provider templates and, for daemons, package templates, the device before its parent in every directory), and mapped to the requested target. Mappings made by the user are kept, and files without templates are reported. In an archive of a lab, the startup configuration of every node is the first collected file with the name of the node; a file is never used by two nodes, nothing else changes, and the archive is refused exactly when no node gets a new startup configuration. A user mapping of a generated file of another node is mistaken for a generated file when the name of that node starts with the name of this node.", "quantifier": "every node, every list of templates and mappings, every file system, every list of collected configurations", "why_tests_cant": "file and node names and the contents of template directories are arbitrary; tests use a few fixed ones", "anchors": [{"file": "netsim/providers/__init__.py", "symbols": ["find_extra_template", "create_extra_files", "create_extra_files_mappings"]}, {"file": "netsim/providers/clab.py", "symbols": ["node_post_transform", "post_configuration_create"]}, {"file": "netsim/cli/clab_actions/tarball.py", "symbols": ["find_config_file", "clab_config_adjust"]}]}
{"id": "C136", "title": "LAG members and MLAG peer links become physical links", "statement": "When LAG and MLAG peer links are processed without errors, links without the lag attribute are not changed; every LAG has at least one member, every member connects two different nodes, and exactly one physical link between these nodes is created for every member; an MLAG peer link becomes a link between the nodes of its first member, which use the same device with MLAG support, and every other member is a link between the same two nodes; nothing else is created. The MLAG peers are exactly the nodes at the ends of peer links, and an MLAG group assigned by netlab is different from the groups of all other peer links. All LAG links are processed unless there is an error (or a LAG with an empty list of members), and an invalid member is always reported.", "quantifier": "all lists of links, members, MLAG groups, device types and MLAG support", "why_tests_cant": "links are added to the list of links while it is processed and identified with their position; tests check a few topologies", "anchors": [{"file": "netsim/modules/lag.py", "symbols": ["LAG.module_pre_transform", "process_lag_link", "create_lag_member_links", "create_peer_links", "normalized_members", "populate_peerlink_id_set"]}]}
{"id": "C137", "title": "First-hop gateways on nodes", "statement": "When a node is processed without an exception: an error is reported exactly when an interface uses a first-hop gateway protocol the device does not support, and then nothing is changed. Otherwise the IPv4 address is removed exactly from interfaces with an anycast gateway without unicast addresses; an interface with a gateway keeps its gateway attributes, the parameters of its own protocol are node parameters merged with interface parameters, parameters of other protocols are removed; an interface on which the gateway is disabled has no gateway data; the node keeps exactly the parameters of protocols used on its interfaces; and the gateway module is removed exactly when no interface uses a gateway.", "quantifier": "all nodes, interfaces, gateway settings, sets of known and supported protocols", "why_tests_cant": "the result depends on all combinations of node and interface settings over all interfaces of the node", "anchors": [{"file": "netsim/modules/gateway.py", "symbols": ["check_protocol_support", "cleanup_unicast_ip", "FHRP.node_post_transform", "cleanup_intf_protocol_parameters"]}]}
{"id": "C138", "title": "A VLAN extended with VXLAN connects the nodes that have it and no others", "statement": "When VLAN identifiers and VNIs are assigned without errors: a VLAN defined in the topology and listed in vxlan.vlans (with no explicit vni: false) connects any two nodes of the same VXLAN domain that have it in node data or on an interface and use static flooding lists: each of them floods the traffic of this VLAN to the tunnel endpoint of the other one. A VLAN with a VNI assigned by netlab is never connected to another VLAN: every tunnel endpoint in its flooding list belongs to another node of the same domain that has the same VLAN, and that VLAN is defined in the topology, thus a VLAN defined in a node only stays in that node. (VLANs with the same static VNI are connected without an error.)", "quantifier": "all topologies, VLANs, identifiers and VNIs, lists of VXLAN-enabled VLANs, sets of VLANs used on interfaces, nodes, VXLAN domains and tunnel endpoints", "why_tests_cant": "connectivity depends on identifier assignment, copying of VLAN data into nodes and flooding lists of all nodes; tests compare a few transformed topologies", "anchors": [{"file": "netsim/modules/vlan.py", "symbols": ["populate_node_vlan", "populate_node_vlan_data", "create_node_vlan", "VLAN.module_pre_transform", "VLAN.node_pre_transform"]}, {"file": "netsim/modules/vxlan.py", "symbols": ["assign_vni", "VXLAN.module_post_node_transform", "VXLAN.module_post_transform", "build_vtep_list"]}]}
{"id": "C139", "title": "netlab restart stops the lab before it is started again", "statement": "netlab restart with the arguments understood by netlab down (verbose) or removed from its arguments (--no-config, --fast-config, --snapshot without a file name) stops the lab first and starts it with all arguments if netlab down did not exit; when there is any other argument (a topology file, a snapshot file, --quiet, --log, --warning, --raise_on_error) nothing is done: the lab is neither stopped nor started.", "quantifier": "all command lines accepted by netlab restart, file names that do not look like options, outcomes of netlab down", "why_tests_cant": "three argument parsers must agree on every combination of arguments", "anchors": [{"file": "netsim/cli/restart.py", "symbols": ["restart_parse_args", "run"]}, {"file": "netsim/cli/down.py", "symbols": ["down_parse"]}, {"file": "netsim/cli/__init__.py", "symbols": ["common_parse_args"]}]}
{"id": "C140", "title": "netlab test leaves no traces and reports the result of the test", "statement": "netlab test never changes a working directory that already exists; success is reported exactly when netlab up and netlab down worked, a lab that could not be started or stopped is removed with a forced cleanup; when the working directory is a name in the current directory and can be removed, it does not exist after a test that was not aborted, and no other file is changed (as long as the commands it executes do not change them).", "quantifier": "all file systems, working directories, outcomes of commands, probes and removals", "why_tests_cant": "covers all combinations of failures and contents of the file system; needs a virtualization environment", "anchors": [{"file": "netsim/cli/test.py", "symbols": ["run", "copy_topology", "cleanup_force", "cleanup_working_directory"]}]}
{"id": "C141", "title": "netlab collect archives the collected configurations", "statement": "netlab collect starts the Ansible playbook with an empty output directory in the lab directory without changing any other file; when it is started in the lab directory or with an absolute output directory, the tarball contains exactly the files found in the output directory after the playbook has been executed, and --cleanup removes the output directory and nothing else; the name of the tarball is the specified name if it contains .tar, otherwise .tar.gz is added.", "quantifier": "all file systems, directories, playbook effects and outcomes, tarball names", "why_tests_cant": "the outcome depends on the current directory, the lab directory and previous contents of the file system", "anchors": [{"file": "netsim/cli/collect.py", "symbols": ["run", "get_tarball_file"]}, {"file": "netsim/cli/__init__.py", "symbols": ["fs_cleanup"]}]}
{"id": "C142", "title": "Unsupported directions and values of BGP policy attributes are reported once", "statement": "For every collection of BGP neighbors with BGP policy attributes, error messages name exactly the (node, attribute, direction) combinations the device does not support and the (node, attribute, direction, value) combinations with a value that has neither an acceptable type nor is one of the acceptable values. Every one of them is reported exactly once, regardless of how many neighbors have it; nothing is reported when all the attributes are acceptable.", "quantifier": "all device features, all lists of neighbor attributes with arbitrary values", "why_tests_cant": "depends on the history of earlier checks (a memo of reported errors) for arbitrary sequences of neighbors", "anchors": [{"file": "netsim/extra/bgp.policy/plugin.py", "symbols": ["check_attribute_direction"]}]}
{"id": "C143", "title": "The Graphite graph shows the topology", "statement": "For every transformed topology, the graph created for Graphite contains every node with its attributes, one node for every LAN or stub link that is not a line between two nodes (with its bridge name, and group and level of the first attached node) and nothing else; every line ends in nodes of the graph; every interface attached to a point-to-point, LAN or stub link appears in the graph exactly once; and two interfaces are connected (with a line, or through the same bridge) exactly when they are attached to the same link.", "quantifier": "all topologies with unique node names and link indexes in which links attach existing nodes", "why_tests_cant": "connectivity of an unbounded graph for every combination of link types and sizes", "anchors": [{"file": "netsim/tools/graphite.py", "symbols": ["nodes_items", "links_items", "short_ifname"]}]}
{"id": "C144", "title": "VRFs used on interfaces are defined in nodes", "statement": "For every node, global VRF definitions and VRFs used on interfaces: a VRF is reported exactly when it is used on an interface and has no (non-empty) definition in the node or in the topology; the resulting VRFs of the node are those defined in the node and the global VRFs used on its interfaces; and every attribute of a VRF is the node-specific value or, when the node says nothing about it, the value from the global VRF.", "quantifier": "all global and node VRF definitions with arbitrary nested attributes, all lists of interfaces", "why_tests_cant": "the result depends on the state accumulated over all interfaces and on recursive merge of arbitrarily nested data", "anchors": [{"file": "netsim/modules/vrf.py", "symbols": ["VRF.node_post_link_transform"]}]}
{"id": "C145", "title": "'netlab show' commands display exactly the content of system defaults", "statement": "For every set of devices, modules and providers: 'netlab show devices' displays the descriptions of exactly the selected devices (internal devices are never displayed) in alphabetical order, with daemons in a separate table; 'netlab show images' has, for every selected device, its image for every provider apart from external; 'netlab show module-support' has a column for every selected module, a row for every selected device and a mark exactly where the device supports the module, the text format lists exactly these modules, and the YAML format for a device has exactly the supported modules and their features; 'netlab show modules' lists exactly the devices supporting every module, the YAML format for a module has exactly the (selected) features of every device supporting it, and the table of features has a column for every feature of the module. The command fails only for modules that do not exist or have no devices. The YAML format of 'netlab show modules' without a module has no devices, and the YAML format of 'netlab show module-support' without a device has features of the last device only (defects).", "quantifier": "all sets of devices, modules and providers with arbitrary (nested) features, all values of the --device, --module and --feature arguments", "why_tests_cant": "The output depends on user defaults, plugins and all combinations of arguments; existing tests do not look at the output of these commands.", "anchors": [{"file": "netsim/cli/show_commands/devices.py", "symbols": ["show"]}, {"file": "netsim/cli/show_commands/images.py", "symbols": ["show"]}, {"file": "netsim/cli/show_commands/module_support.py", "symbols": ["show"]}, {"file": "netsim/cli/show_commands/modules.py", "symbols": ["show", "show_module_features", "get_feature_list"]}, {"file": "netsim/cli/show_commands/__init__.py", "symbols": ["get_modlist", "DEVICES_TO_SKIP"]}]}
{"id": "C146", "title": "Validation tests use the right plugin and the right action, and only selected tests are executed", "statement": "For every sequence of validation tests and whatever happens with plugin files in the meantime: a test that uses a plugin gets the action (show before exec) of the plugin file for its device that was first on the search path when that device was used for the first time; the plugin of a device is loaded at most once, a missing or broken plugin is reported exactly once, and nothing is loaded or reported for devices that are not used. The action of a test is the show command for the device, otherwise its exec command, configuration template, SuzieQ query, the plugin action, or waiting when the test has no command for any device. 'netlab validate test...' executes exactly the specified tests in the order in which they are defined, and reports every test that does not exist. A missing plugin action is reported every time it is needed (defect).", "quantifier": "all search paths and file contents (changing between tests), all sequences of tests, all devices, all lists of selected tests", "why_tests_cant": "The result depends on the history of previous tests (cached plugins) and on changes of files while tests are running; unit tests check individual calls.", "anchors": [{"file": "netsim/cli/validate.py", "symbols": ["load_plugin", "find_plugin", "find_plugin_action", "find_test_action", "filter_by_tests"]}, {"file": "netsim/utils/files.py", "symbols": ["load_python_module"]}]}
{"id": "C147", "title": "Output modules and tool configuration files are created as specified", "statement": "An output specification `module:format:...=file,file` passed to `netlab create` is split into exactly these parts for any module, formats and file names, the named output module is the one that is executed, output modules are executed in the specified order, and an error in one terminates the command before the next one is executed. The YAML output contains all the topology data apart from the parts removed by `nodefault` and `noaddr`; the first other format is an expression evaluated on these data. For each external tool exactly the files in its configuration are created, with the content produced by the tool output module or template, and every incomplete entry is reported. Exceptions: the settings of an output module are ignored when the specification has a file name and no format; a file name is truncated at an equal sign; after unknown output modules one more output module is executed before the command fails, and the command does not fail when they are the last ones; a file of a tool without an output module is created without content.", "quantifier": "every output specification, list of output modules and their errors, topology, list of formats, tool configuration, output module and template", "why_tests_cant": "tests use a few fixed specifications and tool configurations; the splitting must work for all texts and the error handling for any sequence of failing modules", "anchors": [{"file": "netsim/outputs/__init__.py", "symbols": ["_TopologyOutput.__init__", "load"]}, {"file": "netsim/cli/create.py", "symbols": ["run"]}, {"file": "netsim/outputs/yaml.py", "symbols": ["YAML.write"]}, {"file": "netsim/outputs/tools.py", "symbols": ["create_tool_config", "render_tool_config"]}]}
{"id": "C148", "title": "Device features copied or merged from another device are those of the other device", "statement": "When plugin defaults say that a part of device data is copied from another device, the result has at that place exactly what the other device has at the same place; when they say the data are merged, the result has all own settings and those settings of the other device that own settings do not override. Everything else is unchanged, valid requests are always processed, and a request that refers to data that do not exist is a fatal error. Exceptions: the merge request stays in the merged data; a request in the data of the other device that is processed later is copied and never processed.", "quantifier": "every dictionary of devices with any nesting, any number of copy and merge requests at any depth, and any path", "why_tests_cant": "tests use the requests in the plugins of the project; a request might be at any depth, requests are processed while the dictionary is being changed, and the result depends on the order of devices", "anchors": [{"file": "netsim/augment/config.py", "symbols": ["copy_merge_device_features", "process_copy_requests"]}, {"file": "netsim/augment/plugin.py", "symbols": ["merge_plugin_defaults"]}]}
{"id": "C149", "title": "Displayed data are the requested data", "statement": "`netlab inspect` with an expression that contains neither a colon nor an equal sign displays the value of that expression in the lab data (all data when there is no expression) and creates no files. `netlab show attributes` displays the attributes of the requested object of the requested module exactly as they are defined and reports unknown modules and objects; displayed interface attributes are all interface attributes plus the link attributes that are propagated to interfaces, where definitions of interface attributes take precedence. The YAML output is written into the first requested file (or the default file or standard output), and an error is reported exactly when more file names were requested.", "quantifier": "all expressions, evaluators, lab data, attribute definitions, modules and objects", "why_tests_cant": "Expressions and attribute tables are arbitrary; every position in the displayed dictionary matters.", "anchors": [{"file": "netsim/cli/inspect.py", "symbols": ["inspect_value"]}, {"file": "netsim/outputs/yaml.py", "symbols": ["YAML"]}, {"file": "netsim/cli/show_commands/attributes.py", "symbols": ["get_attribute_subset"]}]}
{"id": "C150", "title": "Routing filters are normalized as specified", "statement": "Every prefix, AS path and community filter in the topology or a node becomes a list with one entry for every entry the user specified, in the same order. An AS path or community entry that is not a dictionary is the path to match; elements of a path given as a list are separated with spaces; an entry without a path and without a list of paths matches any path. Entries without an action permit, entries without a sequence number are numbered in tens, and all other attributes are kept. A filter without a value is an error in the topology (but not on a node). Other routing data are not changed, and normalizing normalized data changes nothing.", "quantifier": "all routing data, filters, entries and attribute values; the text of a value is an arbitrary function", "why_tests_cant": "Data is normalized before it is validated, so it may have any shape; idempotence must hold for all of them.", "anchors": [{"file": "netsim/modules/routing.py", "symbols": ["normalize_routing_entry", "normalize_aspath_entry", "normalize_routing_object", "normalize_routing_objects", "normalize_routing_data"]}]}
{"id": "C151", "title": "Virtual machines and containers have unique names", "statement": "Virtual machines (containers) of different nodes in a lab have different names. Virtual machines of labs whose names contain no dots and underscores have different names, and so have containers of labs whose names contain no dashes when the container prefix is not empty. A Vagrant box with a version is split into the box and the version when there is a dot in one of them. Provider configuration files contain exactly the links that are not virtual, in the same order. The identifier of an external lab is the specified one; the default one is not empty and is different for labs with different names.", "quantifier": "all names of labs and nodes, prefixes, images, links and identifiers", "why_tests_cant": "Uniqueness of generated names is a statement about all pairs of names.", "anchors": [{"file": "netsim/providers/libvirt.py", "symbols": ["get_node_name"]}, {"file": "netsim/providers/clab.py", "symbols": ["get_node_name"]}, {"file": "netsim/providers/__init__.py", "symbols": ["node_image_version", "pre_output_transform"]}, {"file": "netsim/providers/external.py", "symbols": ["External"]}]}
{"id": "C152", "title": "netlab install executes the requested scripts", "statement": "`netlab install` executes the requested installation scripts in the order they were specified and stops at the first script that does not exist, needs a command that is not available, is not confirmed by the user or fails; the command completes exactly when all scripts are executed and succeed. Scripts use sudo when the user is not root and sudo is available, unless this script or one before it installs Python libraries in a virtual environment or for the user. Python libraries are installed into a managed installation or for the user with the necessary flags, and these flags are not used otherwise.", "quantifier": "all systems, arguments, lists of scripts, answers of the user and results of scripts", "why_tests_cant": "Environment variables set for one script are used by all scripts after it, so every list of scripts is a different history.", "anchors": [{"file": "netsim/cli/install.py", "symbols": ["check_crazy_pip3", "set_sudo_flag", "check_script", "run"]}]}
{"id": "C153", "title": "Commands that stop labs, forget labs or kill containers ask for confirmation and touch only what was selected", "statement": "A question is decided by the first answer that is \"y\", \"yes\", \"n\" or \"no\" (in upper or lower case); other answers are ignored. \"netlab status\" stops a lab only with --cleanup (and without --all and --reset) and after the user says yes; it runs \"netlab down --cleanup\" just once, in the directory of the lab selected with -i or found in the current directory. It removes the status file only with --reset alone and after the user says yes. Conflicting options do nothing. --all lists all labs in the status file, --log the log of the selected lab, and without options the nodes of the selected lab are displayed exactly when the snapshot can be read and the status or log of the lab says it was started. \"netlab clab cleanup\" does nothing without --force or a confirmation; otherwise it kills all running containers in one command and prunes the rest.", "quantifier": "Every combination of arguments, every content of the status file, every list of answers typed by the user, every current directory and every list of running containers.", "why_tests_cant": "Tests do not run destructive commands, and the answers and status files of users are unbounded.", "anchors": [{"file": "netsim/utils/strings.py", "symbols": ["confirm"]}, {"file": "netsim/cli/status.py", "symbols": ["run", "check_conflicting_options", "cleanup_lab", "reset_lab_status", "show_lab", "show_lab_log", "display_active_labs", "get_lab_status"]}, {"file": "netsim/cli/clab_actions/cleanup.py", "symbols": ["clab_cleanup", "cleanup_confirm"]}]}
{"id": "C154", "title": "netlab libvirt package builds, installs and cleans up", "statement": "A box is not built while labs are running or before the user answers the question. When all steps succeed, the box is created and then installed, and the virtual machine, the management network and the build directory are gone. The steps are executed in a fixed order, none of them after a failing step, and the box is installed only when everything before it succeeded. An interrupt by the user at any step, and an exception in any step after the pre-install script, leaves no virtual machine, network or build directory behind. The disk of the virtual machine is made from the file given by the user or from a VMDK file extracted from an OVA archive, and the process stops when a command fails. The version of the box is the first answer made of at most 16 letters, digits, underscores, dots and dashes that does not start with a dot or dash.", "quantifier": "Every outcome (success, exception, exit, interrupt) of every step, everything a failing step may leave behind, every --skip text, every list of answers, every name of the disk and build directory.", "why_tests_cant": "Box building needs libvirt, a VM disk and a human on the console; it is not covered by tests, and failures can happen at every step.", "anchors": [{"file": "netsim/cli/libvirt_actions/package.py", "symbols": ["run", "build", "box_build_confirm", "check_running_labs", "cleanup", "create_workdir", "lp_create_vm_disk", "lp_create_vm", "lp_create_box", "lp_install_box", "valid_version", "abort_on_failure"]}, {"file": "netsim/cli/external_commands.py", "symbols": ["run_command"]}]}
{"id": "C155", "title": "Duplicate addresses in VLANs are reported", "statement": "When the check is enabled, two nodes with the same address in a VLAN defined in the topology are reported as an error, whether or not they are attached to the same link, and so is a node that has the gateway address of the VLAN. The address of a node is the address of its VLAN interface or, without a VLAN interface, the address of its interface on a link of the VLAN. There are no false alarms. Duplicate addresses in VLANs that exist only on a node, and addresses used with different prefix lengths, are not reported.", "quantifier": "all topologies with unique node names where no node is attached twice to a link, all VLANs, addresses, gateways and both address families", "why_tests_cant": "Neighbor lists of a VLAN are built incrementally from all links of all nodes; a test covers a few topologies.", "anchors": [{"file": "netsim/modules/vlan.py", "symbols": ["check_vlan_duplicate_address", "update_vlan_neighbor_list", "Vlan.module_post_link_transform"]}, {"file": "netsim/augment/links.py", "symbols": ["check_duplicate_address"]}]}
{"id": "C156", "title": "Users are warned about LAG links that cannot work", "statement": "LACP does not work across Linux bridges. netlab prints a warning naming the nodes (in alphabetical order) of every link aggregation group that connects nodes of several virtualization providers, and it prints a single warning for parallel LAGs between the same nodes. There is no warning about a LAG between two nodes that are not hosts and have no provider of their own unless the user specified the bridge, or libvirt point-to-point links use bridges. Links used to build LAG interfaces are removed at the end of the transformation and no other link is. There are false alarms: links with hosts or with more than two nodes (MLAG) have a bridge name, and netlab warns about them in labs with a single provider.", "quantifier": "all lists of links, nodes with and without their own providers, lab names and provider settings", "why_tests_cant": "Warnings depend on types and bridge names assigned to links in three phases of the transformation, on the set of nodes of earlier LAGs, and on providers of all nodes; tests use a few labs.", "anchors": [{"file": "netsim/modules/lag.py", "symbols": ["check_bridge_links", "LAG.module_post_transform"]}, {"file": "netsim/providers/libvirt.py", "symbols": ["Libvirt.pre_transform"]}, {"file": "netsim/providers/__init__.py", "symbols": ["_Provider.pre_transform"]}, {"file": "netsim/augment/links.py", "symbols": ["set_link_type_role", "set_link_bridge_name"]}]}
{"id": "C157", "title": "Logging and debugging flags are the ones that were requested last", "statement": "After any sequence of commands and library calls, the logging, quiet, warning and raise-on-error flags and the verbosity have the values requested by the last command or call that requested them, and flags nobody requested are unchanged. Command line arguments only turn flags on: once a flag is on, no sequence of commands turns it off. --test errors has the same effect as --quiet. Debugging messages are printed exactly for the flags listed in the last request (all of them with --debug without a list or with the flag all); a command that has the --debug argument turns debugging off when the argument is not used. Setting flags from a program returns the current values of all flags, and calling that function without arguments changes nothing.", "quantifier": "all sequences of commands with arbitrary arguments and of library calls, and all initial values of flags", "why_tests_cant": "Flags are global variables changed by every command; their values depend on the whole history of calls, and unit tests look at a single call.", "anchors": [{"file": "netsim/utils/log.py", "symbols": ["set_logging_flags", "set_flag", "debug_active"]}]}
{"id": "C158", "title": "VLAN access interfaces end with their own neighbors and descriptions", "statement": "After the data transformation every bridged access interface in a VLAN has, as its neighbors, exactly the nodes connected to its own link in the original order, its description names the node, these neighbors (\"stub\" if there are none) and the access VLAN; VLAN interfaces keep their VLAN-wide neighbor lists and no temporary neighbor data is left in the nodes.", "quantifier": "all topologies, nodes, VLANs and lists of interfaces for which the transformation succeeds", "why_tests_cant": "The neighbor lists are saved, removed, used to build VLAN-wide lists and restored in different transformation steps; tests compare a few finished topologies.", "anchors": [{"file": "netsim/modules/vlan.py", "symbols": ["VLAN.node_cleanup", "create_svi_interfaces", "set_svi_neighbor_list"]}, {"file": "netsim/augment/links.py", "symbols": ["get_interface_description"]}]}
{"id": "C159", "title": "Every DHCP server serves all DHCP clients", "statement": "Every node that is a DHCP server gets a pool for every VLAN or link with DHCP clients and for nothing else, all servers have the same pools, and nodes that are not servers are not changed. The VRF flag set by the user is kept; without it the flag is set if and only if a pool is in a VRF. Prefix mismatches are reported once however many servers there are, and not at all without a server.", "quantifier": "all topologies, lists of nodes, numbers of DHCP servers and assignments of pools to VRFs", "why_tests_cant": "The pools are built when the first server is found and built again while the list is empty; tests use topologies with one or two servers.", "anchors": [{"file": "netsim/modules/dhcp.py", "symbols": ["set_dhcp_server_pools", "build_topology_dhcp_pools", "DHCP.module_post_transform"]}]}
{"id": "C160", "title": "Duplicate keys in YAML files are rejected", "statement": "A YAML document is accepted if and only if no mapping in it, at any depth, uses the same key twice. The key in the error message is used at least twice in a mapping of the document. Nothing is lost from an accepted document: every mapping becomes a dictionary with the same keys and values in the same order.", "quantifier": "all YAML documents of any depth and size", "why_tests_cant": "Duplicate keys can be at any depth of a document of any shape; tests contain a few documents.", "anchors": [{"file": "netsim/utils/read.py", "symbols": ["UniqueKeyLoader.construct_mapping"]}]}
{"id": "C161", "title": "The device inventory describes all nodes", "statement": "The device inventory has an entry for every node. Forwarded ports in the entry are changed by the ID of the node and override everything else; other settings come, in this order, from the provider, the node, its name or management address, and its device. Apart from nodes the inventory can contain only the entry \"all\", in the format with address pools: it lists all pools in their order with all attributes apart from the internal ones, unless a node is called \"all\".", "quantifier": "all lists of nodes, providers, device variables and address pools", "why_tests_cant": "Settings from five sources override each other; tests compare the inventory of a few labs.", "anchors": [{"file": "netsim/outputs/devices.py", "symbols": ["create", "write_devices"]}, {"file": "netsim/outputs/common.py", "symbols": ["adjust_inventory_host", "provider_inventory_settings"]}]}
{"id": "C162", "title": "Transit VNIs of VRFs and VNIs of VLANs do not clash", "statement": "Unless an error is reported, no VLAN (global or in a node, with a static or an automatic VNI) has the VNI that a VRF uses as its static transit VNI, and every clash between static VNIs is reported. An automatic transit VNI differs from all VLAN VNIs below the first transit VNI; it can be equal to a static VLAN VNI above it.", "quantifier": "all topologies with VLANs and VRFs, all lists of VXLAN VLANs and all start values", "why_tests_cant": "Static and automatic VNIs are collected and assigned in different modules and transformation steps; a clash depends on all VLANs and VRFs of a topology.", "anchors": [{"file": "netsim/modules/evpn.py", "symbols": ["register_static_transit_vni", "vrf_transit_vni"]}, {"file": "netsim/modules/vxlan.py", "symbols": ["register_static_vni", "assign_vni"]}]}
