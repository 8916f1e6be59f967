import Verif.Lemmas.Assigns
import Verif.Lemmas.Assoc
import Verif.Lemmas.Box
import Verif.Lemmas.Groups
import Verif.Lemmas.IdSet
import Verif.Lemmas.Ipam
import Verif.Lemmas.IpamPolicy
import Verif.Lemmas.Layers
import Verif.Lemmas.Links
import Verif.Lemmas.NodeId
import Verif.Lemmas.PoolSystem
import Verif.Lemmas.Pools
import Verif.Lemmas.Scoped
import Verif.Lemmas.Settings
import Verif.Lemmas.Sort
import Verif.Lemmas.Util
import Verif.Lemmas.Vlan
import Verif.Lemmas.Vrf
import Verif.Model.Access
import Verif.Model.AddrTypes
import Verif.Model.Asn
import Verif.Model.AttrConfig
import Verif.Model.Bfd
import Verif.Model.Bgp
import Verif.Model.BgpAf
import Verif.Model.BgpAs
import Verif.Model.BgpDomain
import Verif.Model.BgpLab
import Verif.Model.BgpMirror
import Verif.Model.BgpPolicy
import Verif.Model.BgpSession
import Verif.Model.Box
import Verif.Model.BoxBuild
import Verif.Model.Cleanup
import Verif.Model.Clone
import Verif.Model.Components
import Verif.Model.Confirm
import Verif.Model.DevCopy
import Verif.Model.DeviceChecks
import Verif.Model.DeviceData
import Verif.Model.DeviceInv
import Verif.Model.Dhcp
import Verif.Model.DhcpRelay
import Verif.Model.DhcpServer
import Verif.Model.Evpn
import Verif.Model.ExtraFiles
import Verif.Model.ExtraPlugins
import Verif.Model.Fabric
import Verif.Model.FileMap
import Verif.Model.Files
import Verif.Model.FilterNorm
import Verif.Model.Gateway
import Verif.Model.GatewayNode
import Verif.Model.Ghost
import Verif.Model.Graph
import Verif.Model.Graphite
import Verif.Model.GroupInit
import Verif.Model.Groups
import Verif.Model.HostRoutes
import Verif.Model.IdSet
import Verif.Model.IfNames
import Verif.Model.Igp
import Verif.Model.IgpAdj
import Verif.Model.IgpProto
import Verif.Model.Inspect
import Verif.Model.Install
import Verif.Model.Inventory
import Verif.Model.Ipam
import Verif.Model.LabAddr
import Verif.Model.LabCommands
import Verif.Model.LabHost
import Verif.Model.LabStatus
import Verif.Model.Lag
import Verif.Model.LagBridge
import Verif.Model.LagLinks
import Verif.Model.LibvirtNet
import Verif.Model.LinkIntf
import Verif.Model.LinkNorm
import Verif.Model.LinkType
import Verif.Model.Links
import Verif.Model.Log
import Verif.Model.LogFlags
import Verif.Model.Loopback
import Verif.Model.Mgmt
import Verif.Model.ModHooks
import Verif.Model.Modules
import Verif.Model.Mpls
import Verif.Model.Multihop
import Verif.Model.Net
import Verif.Model.NodeClean
import Verif.Model.NodeDevice
import Verif.Model.NodeId
import Verif.Model.Nodeset
import Verif.Model.Outputs
import Verif.Model.Plan
import Verif.Model.Plugins
import Verif.Model.PolicyDirection
import Verif.Model.PoolSetup
import Verif.Model.Pools
import Verif.Model.PrefixCheck
import Verif.Model.Provider
import Verif.Model.ProviderNode
import Verif.Model.Quirks
import Verif.Model.ReadTopo
import Verif.Model.RouteImport
import Verif.Model.RoutePolicy
import Verif.Model.RouterId
import Verif.Model.RoutingObjects
import Verif.Model.RrCluster
import Verif.Model.Settings
import Verif.Model.Show
import Verif.Model.Sort
import Verif.Model.StaticIncludes
import Verif.Model.StaticRoutes
import Verif.Model.Stp
import Verif.Model.Svi
import Verif.Model.TestEntry
import Verif.Model.TestPlugin
import Verif.Model.ToolRun
import Verif.Model.TopoUtil
import Verif.Model.TransitReg
import Verif.Model.TransitVni
import Verif.Model.TypeTest
import Verif.Model.Types
import Verif.Model.Vagrant
import Verif.Model.Val
import Verif.Model.ValRun
import Verif.Model.Validate
import Verif.Model.Validation
import Verif.Model.Validators
import Verif.Model.Vlan
import Verif.Model.VlanAccess
import Verif.Model.VlanCleanup
import Verif.Model.VlanDup
import Verif.Model.VlanLinks
import Verif.Model.VlanTrunk
import Verif.Model.VmNames
import Verif.Model.Vrf
import Verif.Model.VrfData
import Verif.Model.VrfNode
import Verif.Model.Vtep
import Verif.Model.VxlanSegments
import Verif.Model.YamlKeys
import Verif.Props.Access
import Verif.Props.AddrTypes
import Verif.Props.Asn
import Verif.Props.AttrConfig
import Verif.Props.AutoAddr
import Verif.Props.Bfd
import Verif.Props.BgpAf
import Verif.Props.BgpAs
import Verif.Props.BgpDomain
import Verif.Props.BgpLab
import Verif.Props.BgpMirror
import Verif.Props.BgpPolicy
import Verif.Props.BgpSession
import Verif.Props.Box
import Verif.Props.BoxBuild
import Verif.Props.Cleanup
import Verif.Props.Clone
import Verif.Props.Components
import Verif.Props.Confirm
import Verif.Props.DevCopy
import Verif.Props.DeviceChecks
import Verif.Props.DeviceData
import Verif.Props.DeviceInv
import Verif.Props.Dhcp
import Verif.Props.DhcpRelay
import Verif.Props.DhcpServer
import Verif.Props.Ebgp
import Verif.Props.Evpn
import Verif.Props.EvpnNode
import Verif.Props.ExtraFiles
import Verif.Props.ExtraPlugins
import Verif.Props.Fabric
import Verif.Props.FileMap
import Verif.Props.Files
import Verif.Props.FilterNorm
import Verif.Props.Gateway
import Verif.Props.GatewayNode
import Verif.Props.Ghost
import Verif.Props.Graph
import Verif.Props.Graphite
import Verif.Props.GroupData
import Verif.Props.GroupInit
import Verif.Props.Groups
import Verif.Props.HashOrder
import Verif.Props.HostRoutes
import Verif.Props.Ibgp
import Verif.Props.IdSet
import Verif.Props.IfNames
import Verif.Props.IfNamesVlan
import Verif.Props.Igp
import Verif.Props.IgpAdj
import Verif.Props.IgpProto
import Verif.Props.Inspect
import Verif.Props.Install
import Verif.Props.Inventory
import Verif.Props.Ipam
import Verif.Props.IpamPolicy
import Verif.Props.LabAddr
import Verif.Props.LabCommands
import Verif.Props.LabHost
import Verif.Props.LabLock
import Verif.Props.LabRecovery
import Verif.Props.LabStatus
import Verif.Props.Lag
import Verif.Props.LagBridge
import Verif.Props.LagLinks
import Verif.Props.LibvirtNet
import Verif.Props.LinkIndex
import Verif.Props.LinkIntf
import Verif.Props.LinkNorm
import Verif.Props.LinkType
import Verif.Props.Links
import Verif.Props.Log
import Verif.Props.LogFlags
import Verif.Props.Loopback
import Verif.Props.Mgmt
import Verif.Props.ModHooks
import Verif.Props.Modules
import Verif.Props.Mpls
import Verif.Props.Multihop
import Verif.Props.NodeClean
import Verif.Props.NodeDevice
import Verif.Props.NodeId
import Verif.Props.Nodeset
import Verif.Props.Outputs
import Verif.Props.Plugins
import Verif.Props.PolicyDirection
import Verif.Props.PoolSetup
import Verif.Props.Pools
import Verif.Props.PrefixCheck
import Verif.Props.Provider
import Verif.Props.ProviderNode
import Verif.Props.Quirks
import Verif.Props.ReadTopo
import Verif.Props.RefList
import Verif.Props.RidLab
import Verif.Props.RouteImport
import Verif.Props.RoutePolicy
import Verif.Props.RouterId
import Verif.Props.RoutingObjects
import Verif.Props.RrCluster
import Verif.Props.Settings
import Verif.Props.Show
import Verif.Props.Sort
import Verif.Props.Stability
import Verif.Props.StabilityVlan
import Verif.Props.StabilityVni
import Verif.Props.StabilityVrf
import Verif.Props.StaticIncludes
import Verif.Props.StaticRoutes
import Verif.Props.Stp
import Verif.Props.Svi
import Verif.Props.TestEntry
import Verif.Props.TestPlugin
import Verif.Props.ToolRun
import Verif.Props.TopoUtil
import Verif.Props.TransitReg
import Verif.Props.TransitVni
import Verif.Props.TypeTest
import Verif.Props.Vagrant
import Verif.Props.ValRun
import Verif.Props.Validate
import Verif.Props.Validation
import Verif.Props.Validators
import Verif.Props.Vlan
import Verif.Props.VlanAccess
import Verif.Props.VlanCleanup
import Verif.Props.VlanDup
import Verif.Props.VlanLinks
import Verif.Props.VlanTags
import Verif.Props.VlanTrunk
import Verif.Props.VmNames
import Verif.Props.Vpn
import Verif.Props.Vrf
import Verif.Props.VrfData
import Verif.Props.VrfNode
import Verif.Props.Vtep
import Verif.Props.VtepMesh
import Verif.Props.VxlanSegments
import Verif.Props.YamlKeys
import Verif.Spec.Access
import Verif.Spec.AddrTypes
import Verif.Spec.Asn
import Verif.Spec.AttrConfig
import Verif.Spec.AutoAddr
import Verif.Spec.Bfd
import Verif.Spec.Bgp
import Verif.Spec.BgpAf
import Verif.Spec.BgpAs
import Verif.Spec.BgpDomain
import Verif.Spec.BgpLab
import Verif.Spec.BgpMirror
import Verif.Spec.BgpPolicy
import Verif.Spec.BgpSession
import Verif.Spec.Box
import Verif.Spec.BoxBuild
import Verif.Spec.Cleanup
import Verif.Spec.Clone
import Verif.Spec.Components
import Verif.Spec.Confirm
import Verif.Spec.DevCopy
import Verif.Spec.DeviceChecks
import Verif.Spec.DeviceInv
import Verif.Spec.Dhcp
import Verif.Spec.DhcpRelay
import Verif.Spec.DhcpServer
import Verif.Spec.Evpn
import Verif.Spec.ExtraFiles
import Verif.Spec.ExtraPlugins
import Verif.Spec.Fabric
import Verif.Spec.FileMap
import Verif.Spec.Files
import Verif.Spec.FilterNorm
import Verif.Spec.Gateway
import Verif.Spec.GatewayNode
import Verif.Spec.Ghost
import Verif.Spec.Graph
import Verif.Spec.Graphite
import Verif.Spec.GroupInit
import Verif.Spec.Groups
import Verif.Spec.HashOrder
import Verif.Spec.HostRoutes
import Verif.Spec.IdSet
import Verif.Spec.IfNames
import Verif.Spec.Igp
import Verif.Spec.IgpAdj
import Verif.Spec.Inspect
import Verif.Spec.Install
import Verif.Spec.Ipam
import Verif.Spec.LabAddr
import Verif.Spec.LabCommands
import Verif.Spec.LabHost
import Verif.Spec.LabRecovery
import Verif.Spec.LabStatus
import Verif.Spec.Lag
import Verif.Spec.LagBridge
import Verif.Spec.LagLinks
import Verif.Spec.LibvirtNet
import Verif.Spec.LinkIntf
import Verif.Spec.LinkNorm
import Verif.Spec.LinkType
import Verif.Spec.Links
import Verif.Spec.Log
import Verif.Spec.LogFlags
import Verif.Spec.Loopback
import Verif.Spec.Mgmt
import Verif.Spec.ModHooks
import Verif.Spec.Mpls
import Verif.Spec.Multihop
import Verif.Spec.Net
import Verif.Spec.NodeClean
import Verif.Spec.NodeDevice
import Verif.Spec.Nodeset
import Verif.Spec.Outputs
import Verif.Spec.Plan
import Verif.Spec.Plugins
import Verif.Spec.PolicyDirection
import Verif.Spec.PoolSetup
import Verif.Spec.Pools
import Verif.Spec.PrefixCheck
import Verif.Spec.Provider
import Verif.Spec.ProviderNode
import Verif.Spec.Quirks
import Verif.Spec.ReadTopo
import Verif.Spec.RidLab
import Verif.Spec.RouteImport
import Verif.Spec.RoutePolicy
import Verif.Spec.Show
import Verif.Spec.Sort
import Verif.Spec.StabilityVrf
import Verif.Spec.StaticRoutes
import Verif.Spec.Stp
import Verif.Spec.Svi
import Verif.Spec.TestEntry
import Verif.Spec.TestPlugin
import Verif.Spec.ToolRun
import Verif.Spec.TopoUtil
import Verif.Spec.TransitReg
import Verif.Spec.TypeTest
import Verif.Spec.Vagrant
import Verif.Spec.ValRun
import Verif.Spec.Validate
import Verif.Spec.Validation
import Verif.Spec.Validators
import Verif.Spec.Vlan
import Verif.Spec.VlanCleanup
import Verif.Spec.VlanDup
import Verif.Spec.VlanLinks
import Verif.Spec.VlanTags
import Verif.Spec.VlanTrunk
import Verif.Spec.Vpn
import Verif.Spec.Vrf
import Verif.Spec.VrfData
import Verif.Spec.VrfNode
import Verif.Spec.Vtep
import Verif.Spec.VxlanSegments
import Verif.Spec.YamlKeys
