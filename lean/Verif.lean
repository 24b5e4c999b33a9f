import Verif.Std.Str
import Verif.Std.Int
import Verif.Spec.Regex
import Verif.Proofs.Regex
import Verif.Std.Bytes
import Verif.Model.Keys
import Verif.Spec.Keys
import Verif.Proofs.Keys
import Verif.Props.Keys
import Verif.Std.Outcome
import Verif.Spec.Number
import Verif.Proofs.Number
import Verif.Model.Duration
import Verif.Spec.Duration
import Verif.Proofs.Duration
import Verif.Props.Duration
import Verif.Std.Content
import Verif.Model.ByteValue
import Verif.Props.ByteValue
import Verif.Model.Ports
import Verif.Spec.Ports
import Verif.Proofs.Ports
import Verif.Props.Ports
import Verif.Props.PortsBack
import Verif.Std.Path
import Verif.Proofs.Path
import Verif.Model.Volumes
import Verif.Spec.Volumes
import Verif.Props.Volumes
import Verif.Model.Validate
import Verif.Spec.Validate
import Verif.Props.Validate
import Verif.Model.Image
import Verif.Spec.Image
import Verif.Spec.ImageParts
import Verif.Proofs.Image
import Verif.Props.Image
import Verif.Model.Modes
import Verif.Spec.Modes
import Verif.Props.Modes
import Verif.Model.Device
import Verif.Spec.Device
import Verif.Props.Device
import Verif.Model.User
import Verif.Spec.User
import Verif.Props.User
import Verif.Model.Mac
import Verif.Spec.Mac
import Verif.Props.Mac
import Verif.Model.CpuSet
import Verif.Spec.CpuSet
import Verif.Props.CpuSet
import Verif.Model.Platform
import Verif.Model.ArchVariant
import Verif.Spec.Platform
import Verif.Props.Platform
import Verif.Std.Float
import Verif.Model.Numbers
import Verif.Spec.Numbers
import Verif.Props.Numbers
import Verif.Std.IndexMap
import Verif.Model.Build
import Verif.Spec.Build
import Verif.Props.Build
import Verif.Model.Common
import Verif.Spec.Common
import Verif.Props.Common
import Verif.Props.ListOrMap
import Verif.Props.Resource
import Verif.Model.Cache
import Verif.Spec.Cache
import Verif.Props.Cache
import Verif.Model.Healthcheck
import Verif.Spec.Healthcheck
import Verif.Props.Healthcheck
import Verif.Model.Serde
import Verif.Model.Exclusive
import Verif.Spec.Exclusive
import Verif.Props.Exclusive
import Verif.Model.AsShort
import Verif.Spec.AsShort
import Verif.Props.AsShort
import Verif.Std.OutcomeOps
import Verif.Model.Derive
import Verif.Model.Codecs
import Verif.Model.Structs
import Verif.Spec.Derive
import Verif.Spec.Structs
import Verif.Proofs.Derive
import Verif.Proofs.Codecs
import Verif.Proofs.Structs
import Verif.Proofs.StructLaws
import Verif.Proofs.StructKeys
import Verif.Proofs.StructTables
import Verif.Proofs.StructKnown
import Verif.Props.Structs
import Verif.Spec.ByteValue
import Verif.Spec.Meaning
import Verif.Spec.Schemas
import Verif.Proofs.Meaning
import Verif.Proofs.MeaningStructs
import Verif.Props.Meaning
import Verif.Spec.Ordinary
import Verif.Proofs.Kept
import Verif.Proofs.KeptStructs
import Verif.Props.Kept
import Verif.Model.Empty
import Verif.Spec.Empty
import Verif.Props.Empty
import Verif.Spec.Equality
import Verif.Proofs.Equality
import Verif.Model.Hash
import Verif.Spec.Compared
import Verif.Props.Equality
import Verif.Model.Compare
import Verif.Spec.Compare
import Verif.Props.Compare
import Verif.Model.Options
import Verif.Spec.Options
import Verif.Props.Options
import Verif.Model.Words
import Verif.Spec.Words
import Verif.Props.Words
import Verif.Model.Defaults
import Verif.Spec.Defaults
import Verif.Props.Defaults
import Verif.Model.Making
import Verif.Spec.Making
import Verif.Props.Making
import Verif.Model.Lookup
import Verif.Props.Lookup
import Verif.Model.Convert
import Verif.Spec.Convert
import Verif.Props.Convert
import Verif.Model.Accessors
import Verif.Props.Accessors
import Verif.Model.Visitors
import Verif.Spec.Kinds
import Verif.Props.Kinds
import Verif.Spec.Null
import Verif.Proofs.Null
import Verif.Props.Null
import Verif.Spec.Reasons
import Verif.Proofs.Reasons
import Verif.Props.Reasons
import Verif.Props.MoreReasons
import Verif.Model.Messages
import Verif.Spec.Messages
import Verif.Props.Messages
import Verif.Props.OneLine
import Verif.Model.Release
import Verif.Spec.Release
import Verif.Props.Release
import Verif.Model.Load
import Verif.Spec.Loaded
import Verif.Proofs.Loaded
import Verif.Props.Loaded
import Verif.Props.LoadedFirst
import Verif.Spec.Panic
import Verif.Proofs.Panic
import Verif.Props.Panic
import Verif.Model.Longhand
import Verif.Spec.Longhand
import Verif.Proofs.Longhand
import Verif.Proofs.LonghandSets
import Verif.Proofs.LonghandService
import Verif.Proofs.LonghandBack
import Verif.Props.Longhand
import Verif.Spec.Order
import Verif.Proofs.Order
import Verif.Proofs.OrderTypes
import Verif.Proofs.OrderItems
import Verif.Proofs.OrderStructs
import Verif.Proofs.OrderEqual
import Verif.Props.Order
import Verif.Spec.Edit
import Verif.Proofs.Edit
import Verif.Proofs.EditTypes
import Verif.Proofs.EditItems
import Verif.Proofs.EditFiles
import Verif.Props.Edit
import Verif.Spec.Places
import Verif.Spec.Positional
import Verif.Proofs.Places
import Verif.Proofs.Positional
import Verif.Props.Places
import Verif.Props.Positional
import Verif.Std.Net
import Verif.Spec.Net
import Verif.Proofs.Net
import Verif.Proofs.NetShow
import Verif.Model.Addresses
import Verif.Props.Addresses
import Verif.Spec.Repair
import Verif.Props.Repair
import Verif.Model.Macros
import Verif.Spec.Macros
import Verif.Props.Macros
import Verif.Model.Expansion
import Verif.Spec.Expansion
import Verif.Props.Expansion
import Verif.Std.OsStr
import Verif.Model.OsPath
import Verif.Spec.OsPath
import Verif.Props.OsPath
import Verif.Std.Decimal
import Verif.Spec.Decimal
import Verif.Proofs.Rounding
import Verif.Proofs.RoundsTo
import Verif.Proofs.DecimalRead
import Verif.Proofs.DecimalWrite
import Verif.Proofs.DecimalWhole
import Verif.Model.Floats
import Verif.Props.Floats
import Verif.Model.Greater
import Verif.Spec.Greater
import Verif.Props.Greater
import Verif.Model.Orders
import Verif.Spec.Orders
import Verif.Props.Orders
import Verif.Model.ConvertMessages
import Verif.Spec.ConvertMessages
import Verif.Props.ConvertMessages
import Verif.Spec.NullMount
import Verif.Props.NullMount
import Verif.Std.Exponent
import Verif.Model.Exponent
import Verif.Spec.Exponent
import Verif.Proofs.Exponent
import Verif.Props.Exponent
import Verif.Spec.Renaming
import Verif.Props.Renaming
import Verif.Std.Merge
import Verif.Spec.Merge
import Verif.Proofs.Merge
import Verif.Props.Merge
import Verif.Props.MoreMessages
import Verif.Props.MoreMessages
