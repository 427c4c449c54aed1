import Verif.Conform.Clients
import Verif.Conform.Docs
import Verif.Conform.Lists
import Verif.Conform.Mapper
import Verif.Conform.Resources
import Verif.Conform.SitemapTests
import Verif.Conform.Spec1_0
import Verif.Conform.Spec1_1
import Verif.Conform.Times
import Verif.Props.AnyTime
import Verif.Props.Attributes
import Verif.Props.Basename
import Verif.Props.Builder
import Verif.Props.Bytes
import Verif.Props.CapabilityList
import Verif.Props.Chain
import Verif.Props.ChangeDocs
import Verif.Props.ChangeList
import Verif.Props.ChangeOrder
import Verif.Props.ClientAuthority
import Verif.Props.ClientChanges
import Verif.Props.ClientDescribe
import Verif.Props.ClientEffects
import Verif.Props.ClientExample
import Verif.Props.ClientFetch
import Verif.Props.ClientHistory
import Verif.Props.ClientIncremental
import Verif.Props.ClientLog
import Verif.Props.ClientProgress
import Verif.Props.ClientResult
import Verif.Props.ClientSites
import Verif.Props.ClientState
import Verif.Props.ClientStatus
import Verif.Props.ClientUtils
import Verif.Props.ClientWrite
import Verif.Props.CommandLine
import Verif.Props.CommandRuns
import Verif.Props.CommandSafety
import Verif.Props.Container
import Verif.Props.Copies
import Verif.Props.Discovery
import Verif.Props.Doubles
import Verif.Props.DryRun
import Verif.Props.Dump
import Verif.Props.Excludes
import Verif.Props.ExploreCommand
import Verif.Props.Explorer
import Verif.Props.ExplorerAccount
import Verif.Props.ExplorerStart
import Verif.Props.FileNames
import Verif.Props.FirstCopy
import Verif.Props.Fixity
import Verif.Props.Follow
import Verif.Props.FollowExample
import Verif.Props.Generators
import Verif.Props.HashEffect
import Verif.Props.HashReuse
import Verif.Props.Hashes
import Verif.Props.Kinds
import Verif.Props.Lenient
import Verif.Props.LinkHref
import Verif.Props.Links
import Verif.Props.ListGuards
import Verif.Props.ListIndex
import Verif.Props.ListRead
import Verif.Props.Local
import Verif.Props.Locality
import Verif.Props.Logging
import Verif.Props.LoggingRuns
import Verif.Props.MapOrder
import Verif.Props.Mapper
import Verif.Props.MappingArgs
import Verif.Props.Mirror
import Verif.Props.NamedLinks
import Verif.Props.NewResource
import Verif.Props.OptionOrder
import Verif.Props.Order
import Verif.Props.OrderSource
import Verif.Props.OrderSync
import Verif.Props.Overlap
import Verif.Props.ParseDocument
import Verif.Props.Postpone
import Verif.Props.Prefixes
import Verif.Props.PruneAgain
import Verif.Props.PublishedChanges
import Verif.Props.Refusal
import Verif.Props.Repeat
import Verif.Props.Repr
import Verif.Props.RequestCount
import Verif.Props.Resource
import Verif.Props.ResourceList
import Verif.Props.Resume
import Verif.Props.SameSays
import Verif.Props.ScanAll
import Verif.Props.ScanMappings
import Verif.Props.Scripts
import Verif.Props.ScriptsBuild
import Verif.Props.ScriptsCopy
import Verif.Props.ScriptsExit
import Verif.Props.Separate
import Verif.Props.Sharing
import Verif.Props.Sitemap
import Verif.Props.Spelling
import Verif.Props.StateClients
import Verif.Props.StatusSites
import Verif.Props.Text
import Verif.Props.Tries
import Verif.Props.UrlAuthority
import Verif.Props.UrlOpen
import Verif.Props.W3CDatetime
import Verif.Props.WrittenAgain
import Verif.Audit
