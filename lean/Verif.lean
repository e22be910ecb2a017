import Verif.Lemmas.AgainHardware
import Verif.Lemmas.AgainItems
import Verif.Lemmas.ArgActs
import Verif.Lemmas.ArgCot
import Verif.Lemmas.ArgLeaf
import Verif.Lemmas.ArgOrder
import Verif.Lemmas.ArgPrints
import Verif.Lemmas.ArgTop
import Verif.Lemmas.ArgValues
import Verif.Lemmas.Argparse
import Verif.Lemmas.Commands
import Verif.Lemmas.Count
import Verif.Lemmas.DataValidation
import Verif.Lemmas.Dict
import Verif.Lemmas.Digits
import Verif.Lemmas.DiskDevice
import Verif.Lemmas.DiskNames
import Verif.Lemmas.EditDeclares
import Verif.Lemmas.EditEffects
import Verif.Lemmas.EditFrame
import Verif.Lemmas.EditNames
import Verif.Lemmas.EditProfiles
import Verif.Lemmas.EditProps
import Verif.Lemmas.EditRun
import Verif.Lemmas.EditSteps
import Verif.Lemmas.EditTrace
import Verif.Lemmas.EhCommand
import Verif.Lemmas.Emit
import Verif.Lemmas.EnvProps
import Verif.Lemmas.HwBasic
import Verif.Lemmas.HwItem
import Verif.Lemmas.HwOps
import Verif.Lemmas.Info
import Verif.Lemmas.InjectConfig
import Verif.Lemmas.Isolation
import Verif.Lemmas.Item
import Verif.Lemmas.ItemOps
import Verif.Lemmas.ItemOps2
import Verif.Lemmas.Load
import Verif.Lemmas.Load2
import Verif.Lemmas.Load3
import Verif.Lemmas.Manifest
import Verif.Lemmas.Names
import Verif.Lemmas.NatSort
import Verif.Lemmas.NormIdem
import Verif.Lemmas.OpenCheck
import Verif.Lemmas.Package
import Verif.Lemmas.PackageDisk
import Verif.Lemmas.Partition
import Verif.Lemmas.PathAbs
import Verif.Lemmas.PathNorm
import Verif.Lemmas.Placeholder
import Verif.Lemmas.Re
import Verif.Lemmas.Re2
import Verif.Lemmas.Refresh
import Verif.Lemmas.Reopen
import Verif.Lemmas.RoundTrip
import Verif.Lemmas.RoundTripNames
import Verif.Lemmas.RoundTripNames2
import Verif.Lemmas.RoundTripNames3
import Verif.Lemmas.RoundTripOk
import Verif.Lemmas.Sections
import Verif.Lemmas.SetAll
import Verif.Lemmas.Str
import Verif.Lemmas.TextWrap
import Verif.Lemmas.Track
import Verif.Lemmas.Units
import Verif.Lemmas.Update
import Verif.Lemmas.WriteBase
import Verif.Lemmas.WriteMain
import Verif.Lemmas.WritePlan
import Verif.Lemmas.WriteRun
import Verif.Lemmas.WriteTar
import Verif.Lemmas.XmlLens
import Verif.Lemmas.XmlNames
import Verif.Lemmas.XmlText
import Verif.Lemmas.XmlTree
import Verif.Model.AddDiskCommand
import Verif.Model.Archive
import Verif.Model.Argparse
import Verif.Model.Calls
import Verif.Model.Cli
import Verif.Model.Commands
import Verif.Model.DataValidation
import Verif.Model.Deploy
import Verif.Model.DeployCommand
import Verif.Model.DeployRun
import Verif.Model.Detect
import Verif.Model.DiskDevice
import Verif.Model.Disks
import Verif.Model.EditHardware
import Verif.Model.EditProperties
import Verif.Model.EhCommand
import Verif.Model.EnvProps
import Verif.Model.FileRef
import Verif.Model.Hardware
import Verif.Model.HelpCommand
import Verif.Model.Helper
import Verif.Model.HelperCache
import Verif.Model.ImageFiles
import Verif.Model.Info
import Verif.Model.InfoCommand
import Verif.Model.InjectConfig
import Verif.Model.InstallCommand
import Verif.Model.InstallHelpers
import Verif.Model.Item
import Verif.Model.ItemXml
import Verif.Model.Lifecycle
import Verif.Model.Logging
import Verif.Model.NameHelper
import Verif.Model.Names
import Verif.Model.NatSort
import Verif.Model.NewDisk
import Verif.Model.Open
import Verif.Model.OvfSections
import Verif.Model.OvfXml
import Verif.Model.Package
import Verif.Model.Platform
import Verif.Model.PrettyBytes
import Verif.Model.PropertyArgs
import Verif.Model.Ready
import Verif.Model.Save
import Verif.Model.Session
import Verif.Model.SourceInstall
import Verif.Model.TempDirs
import Verif.Model.Ui
import Verif.Model.Utilities
import Verif.Model.ValidateHw
import Verif.Model.Version
import Verif.Model.Wildcard
import Verif.Model.Write
import Verif.Model.Xml
import Verif.Model.XmlText
import Verif.Props.AddRemove
import Verif.Props.Again
import Verif.Props.AgainHardware
import Verif.Props.Archive
import Verif.Props.ArgDashes
import Verif.Props.ArgHelp
import Verif.Props.ArgOrder
import Verif.Props.Argparse
import Verif.Props.Asked
import Verif.Props.Calls
import Verif.Props.Cli
import Verif.Props.CommandCases
import Verif.Props.CommandDisk
import Verif.Props.CommandDiskCases
import Verif.Props.CommandDiskRuns
import Verif.Props.CommandFiles
import Verif.Props.CommandHelp
import Verif.Props.CommandProps
import Verif.Props.CommandRuns
import Verif.Props.CommandRunsCases
import Verif.Props.Commands
import Verif.Props.ConfigProps
import Verif.Props.Count
import Verif.Props.DataValidation
import Verif.Props.Deploy
import Verif.Props.DeployCommand
import Verif.Props.DeployCommandCases
import Verif.Props.DeployRun
import Verif.Props.Detect
import Verif.Props.DiskCommands
import Verif.Props.DiskDevice
import Verif.Props.DiskNames
import Verif.Props.DiskNamesCases
import Verif.Props.Disks
import Verif.Props.EditHardware
import Verif.Props.EditHardwareArgs
import Verif.Props.EditHardwareFindings
import Verif.Props.EditHardwareNames
import Verif.Props.EditHardwareNetworks
import Verif.Props.EditInteractive
import Verif.Props.EditProduct
import Verif.Props.EditProperties
import Verif.Props.EhCommand
import Verif.Props.EhEffects
import Verif.Props.EhNetworks
import Verif.Props.EnvProps
import Verif.Props.FileRef
import Verif.Props.FilesShown
import Verif.Props.Hardware
import Verif.Props.HardwareShown
import Verif.Props.HelpCommand
import Verif.Props.Helper
import Verif.Props.HelperCache
import Verif.Props.ImageFiles
import Verif.Props.InfoBlocks
import Verif.Props.InfoCommand
import Verif.Props.InfoFiles
import Verif.Props.InfoNetworks
import Verif.Props.InfoOrder
import Verif.Props.InfoProfiles
import Verif.Props.InfoReport
import Verif.Props.InfoSections
import Verif.Props.InjectConfig
import Verif.Props.InjectConfigCases
import Verif.Props.InjectConfigDrive
import Verif.Props.InstallCommand
import Verif.Props.InstallHelpers
import Verif.Props.Item
import Verif.Props.Lifecycle
import Verif.Props.Load
import Verif.Props.Logging
import Verif.Props.ManPages
import Verif.Props.Manual
import Verif.Props.NameHelper
import Verif.Props.NatSort
import Verif.Props.Networks
import Verif.Props.NetworksShown
import Verif.Props.NewDisk
import Verif.Props.Open
import Verif.Props.OpenCases
import Verif.Props.OpenDescriptor
import Verif.Props.OvfSections
import Verif.Props.PackageCoherent
import Verif.Props.PackageConsent
import Verif.Props.PackageDisk
import Verif.Props.PackageDiskCases
import Verif.Props.PackageFiles
import Verif.Props.PackagePlatform
import Verif.Props.PackageRefresh
import Verif.Props.PackageRemove
import Verif.Props.PackageSearch
import Verif.Props.Packages
import Verif.Props.Partition
import Verif.Props.Platform
import Verif.Props.PrettyBytes
import Verif.Props.ProductShown
import Verif.Props.Profiles
import Verif.Props.PropertiesShown
import Verif.Props.PropertyArgs
import Verif.Props.Ready
import Verif.Props.RoundTrip
import Verif.Props.RoundTripNames
import Verif.Props.Save
import Verif.Props.SaveReopen
import Verif.Props.SchemaNames
import Verif.Props.Session
import Verif.Props.SourceInstall
import Verif.Props.TempDirs
import Verif.Props.TextsShown
import Verif.Props.Ui
import Verif.Props.Update
import Verif.Props.Utilities
import Verif.Props.ValidateHw
import Verif.Props.ValidateHwCases
import Verif.Props.VariantsShown
import Verif.Props.Version
import Verif.Props.Wildcard
import Verif.Props.Write
import Verif.Props.WriteCases
import Verif.Props.WriteTouch
import Verif.Props.Xml
import Verif.Props.XmlReopen
import Verif.Props.XmlText
import Verif.Py.Basic
import Verif.Py.Int
import Verif.Py.Path
import Verif.Py.Re
import Verif.Py.Str
import Verif.Py.TextWrap
import Verif.Spec.AddDiskCommand
import Verif.Spec.AgainHardware
import Verif.Spec.Archive
import Verif.Spec.Argparse
import Verif.Spec.Calls
import Verif.Spec.Cli
import Verif.Spec.Commands
import Verif.Spec.DataValidation
import Verif.Spec.DeployCommand
import Verif.Spec.DeployRun
import Verif.Spec.Detect
import Verif.Spec.DiskDevice
import Verif.Spec.DiskNames
import Verif.Spec.Disks
import Verif.Spec.EditHardware
import Verif.Spec.EditProduct
import Verif.Spec.EditProperties
import Verif.Spec.EhCommand
import Verif.Spec.EhEffects
import Verif.Spec.EnvProps
import Verif.Spec.FilesShown
import Verif.Spec.Hardware
import Verif.Spec.HelpCommand
import Verif.Spec.Helper
import Verif.Spec.ImageFiles
import Verif.Spec.Info
import Verif.Spec.InfoCommand
import Verif.Spec.InfoSections
import Verif.Spec.InjectConfig
import Verif.Spec.InstallHelpers
import Verif.Spec.Item
import Verif.Spec.Load
import Verif.Spec.Logging
import Verif.Spec.Manual
import Verif.Spec.Names
import Verif.Spec.NatSort
import Verif.Spec.NetworksShown
import Verif.Spec.NewDisk
import Verif.Spec.Open
import Verif.Spec.OvfSections
import Verif.Spec.Package
import Verif.Spec.Placeholder
import Verif.Spec.Platform
import Verif.Spec.PrettyBytes
import Verif.Spec.ProductShown
import Verif.Spec.PropertyArgs
import Verif.Spec.Ready
import Verif.Spec.Refresh
import Verif.Spec.RoundTrip
import Verif.Spec.Save
import Verif.Spec.Session
import Verif.Spec.SourceInstall
import Verif.Spec.TempDirs
import Verif.Spec.Ui
import Verif.Spec.Utilities
import Verif.Spec.ValidateHw
import Verif.Spec.Version
import Verif.Spec.Wildcard
import Verif.Spec.Write
import Verif.Spec.Xml
import Verif.Spec.XmlText
