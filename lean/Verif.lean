import Verif.Conformance.Artifacts
import Verif.Conformance.Attestation
import Verif.Conformance.Boot
import Verif.Conformance.Ceremony
import Verif.Conformance.Client
import Verif.Conformance.Curve
import Verif.Conformance.Encodings
import Verif.Conformance.Fixtures
import Verif.Conformance.Keys
import Verif.Conformance.Manifest
import Verif.Conformance.Preprod
import Verif.Conformance.Real
import Verif.Conformance.RealCurve
import Verif.Conformance.RealGroup
import Verif.Conformance.RealHash
import Verif.Conformance.RealLaws
import Verif.Conformance.RealOrder
import Verif.Conformance.RealPrimes
import Verif.Conformance.Services
import Verif.Conformance.Sha
import Verif.Conformance.Units
import Verif.Lemmas.Basic
import Verif.Lemmas.Boot
import Verif.Lemmas.BootDevice
import Verif.Lemmas.BootInv
import Verif.Lemmas.BootSteps
import Verif.Lemmas.Borsh
import Verif.Lemmas.Bridge
import Verif.Lemmas.CeremonySize
import Verif.Lemmas.Client
import Verif.Lemmas.ClientCli
import Verif.Lemmas.ClientFiles
import Verif.Lemmas.ClientWrites
import Verif.Lemmas.DeviceLog
import Verif.Lemmas.EnclaveCli
import Verif.Lemmas.Format
import Verif.Lemmas.FormatMsg
import Verif.Lemmas.Forward
import Verif.Lemmas.Frames
import Verif.Lemmas.GF256
import Verif.Lemmas.Generic
import Verif.Lemmas.Hex
import Verif.Lemmas.HostCli
import Verif.Lemmas.Integral
import Verif.Lemmas.Ip
import Verif.Lemmas.Json
import Verif.Lemmas.JsonCanon
import Verif.Lemmas.JsonChars
import Verif.Lemmas.JsonSize
import Verif.Lemmas.JsonText
import Verif.Lemmas.Manifest
import Verif.Lemmas.Monad
import Verif.Lemmas.Net
import Verif.Lemmas.NetClient
import Verif.Lemmas.NetOpen
import Verif.Lemmas.NetSeq
import Verif.Lemmas.NetServe
import Verif.Lemmas.NetWork
import Verif.Lemmas.Parser
import Verif.Lemmas.Progress
import Verif.Lemmas.Prompts
import Verif.Lemmas.Proxy
import Verif.Lemmas.ProxyWork
import Verif.Lemmas.Raises
import Verif.Lemmas.Reach
import Verif.Lemmas.Reaper
import Verif.Lemmas.Relay
import Verif.Lemmas.Secrecy
import Verif.Lemmas.Served
import Verif.Lemmas.Shamir
import Verif.Lemmas.SockAddr
import Verif.Lemmas.Storage
import Verif.Lemmas.Text
import Verif.Lemmas.Typed
import Verif.Lemmas.WireBorsh
import Verif.Lemmas.WireJson
import Verif.Lemmas.Yubikey
import Verif.Model.Approvals
import Verif.Model.Attest
import Verif.Model.Basic
import Verif.Model.Borsh
import Verif.Model.Bridge
import Verif.Model.Builder
import Verif.Model.Client
import Verif.Model.ClientCli
import Verif.Model.ClientFiles
import Verif.Model.ClientTools
import Verif.Model.Egress
import Verif.Model.EnclaveCli
import Verif.Model.Env
import Verif.Model.EnvBorsh
import Verif.Model.Errors
import Verif.Model.Handles
import Verif.Model.Hex
import Verif.Model.Host
import Verif.Model.HostCli
import Verif.Model.Init
import Verif.Model.Ip
import Verif.Model.Json
import Verif.Model.Launcher
import Verif.Model.Manifest
import Verif.Model.Msg
import Verif.Model.NChooseK
import Verif.Model.Net
import Verif.Model.NetEnclave
import Verif.Model.Nsm
import Verif.Model.NsmProvider
import Verif.Model.P256
import Verif.Model.Parser
import Verif.Model.Pool
import Verif.Model.Prompts
import Verif.Model.Proxy
import Verif.Model.Reaper
import Verif.Model.Relay
import Verif.Model.Reprint
import Verif.Model.Services
import Verif.Model.Shamir
import Verif.Model.SignedEcho
import Verif.Model.SockAddr
import Verif.Model.StateMachine
import Verif.Model.Stream
import Verif.Model.Text
import Verif.Model.Tunnel
import Verif.Model.Typed
import Verif.Model.Wire
import Verif.Model.World
import Verif.Model.Yubikey
import Verif.Props.Approvals
import Verif.Props.Attest
import Verif.Props.Boot
import Verif.Props.BootDoc
import Verif.Props.Borsh
import Verif.Props.Bridge
import Verif.Props.BridgeInfo
import Verif.Props.Builder
import Verif.Props.CanonicalJson
import Verif.Props.ClientApprove
import Verif.Props.ClientCeremony
import Verif.Props.ClientCeremonyToy
import Verif.Props.ClientCli
import Verif.Props.ClientCommand
import Verif.Props.ClientCommandToy
import Verif.Props.ClientCommands
import Verif.Props.ClientDeploy
import Verif.Props.ClientDeployToy
import Verif.Props.ClientDev
import Verif.Props.ClientEnclave
import Verif.Props.ClientEnvelope
import Verif.Props.ClientFiles
import Verif.Props.ClientForward
import Verif.Props.ClientForwardToy
import Verif.Props.ClientGenerate
import Verif.Props.ClientGenesis
import Verif.Props.ClientPipeline
import Verif.Props.ClientProxy
import Verif.Props.ClientProxyCommand
import Verif.Props.ClientTools
import Verif.Props.ClientToy
import Verif.Props.ClientToyV1
import Verif.Props.ClientWrites
import Verif.Props.Completes
import Verif.Props.Confirm
import Verif.Props.ConfirmRun
import Verif.Props.Egress
import Verif.Props.EnclaveCli
import Verif.Props.EnclaveCliToy
import Verif.Props.EnclaveExamples
import Verif.Props.Env
import Verif.Props.EnvBorsh
import Verif.Props.Format
import Verif.Props.FormatBytes
import Verif.Props.FormatMsg
import Verif.Props.FormatMsgAnswer
import Verif.Props.FormatMsgBytes
import Verif.Props.FormatMsgWire
import Verif.Props.FormatWrites
import Verif.Props.Forward
import Verif.Props.Genesis
import Verif.Props.HashVersions
import Verif.Props.Hex
import Verif.Props.Host
import Verif.Props.HostCli
import Verif.Props.HostRoutes
import Verif.Props.Init
import Verif.Props.InstancesA
import Verif.Props.InstancesB
import Verif.Props.InstancesC
import Verif.Props.InstancesD
import Verif.Props.InstancesE
import Verif.Props.Ip
import Verif.Props.JsonText
import Verif.Props.KeyFormat
import Verif.Props.Launcher
import Verif.Props.Lifecycle
import Verif.Props.LifecycleExamples
import Verif.Props.Live
import Verif.Props.NChooseK
import Verif.Props.Net
import Verif.Props.NetEnclave
import Verif.Props.NetExamples
import Verif.Props.NetLive
import Verif.Props.NetLiveRun
import Verif.Props.NetStarve
import Verif.Props.Nsm
import Verif.Props.NsmProvider
import Verif.Props.P256
import Verif.Props.Parser
import Verif.Props.ParserEnclave
import Verif.Props.Pool
import Verif.Props.Prompts
import Verif.Props.PromptsToy
import Verif.Props.Proxy
import Verif.Props.ProxyCache
import Verif.Props.ProxyLive
import Verif.Props.ProxyLiveRun
import Verif.Props.ProxyRuns
import Verif.Props.Reaper
import Verif.Props.ReaperEnclave
import Verif.Props.Relay
import Verif.Props.RelayLive
import Verif.Props.Reprint
import Verif.Props.SameKey
import Verif.Props.SameKeyExample
import Verif.Props.SameKeyRun
import Verif.Props.Scenario
import Verif.Props.Secrecy
import Verif.Props.Shamir
import Verif.Props.SignedEcho
import Verif.Props.SignedEchoErrors
import Verif.Props.SockAddr
import Verif.Props.StandardCrypto
import Verif.Props.Storage
import Verif.Props.Stream
import Verif.Props.ToySize
import Verif.Props.Tunnel
import Verif.Props.TunnelPackets
import Verif.Props.Wire
import Verif.Props.WireState
import Verif.Props.Yubikey
import Verif.Props.YubikeyCard
import Verif.Props.YubikeyCommands
import Verif.Props.YubikeyCommandsToy
import Verif.Props.YubikeyLike
import Verif.Props.YubikeyProvision
import Verif.Props.YubikeyProxyToy
import Verif.Props.YubikeySafe
import Verif.Props.YubikeyToy
import Verif.Props.YubikeyWrites
import Verif.Spec.Attest
import Verif.Spec.Boot
import Verif.Spec.Bridge
import Verif.Spec.Builder
import Verif.Spec.Client
import Verif.Spec.ClientCeremony
import Verif.Spec.ClientCli
import Verif.Spec.ClientCommands
import Verif.Spec.ClientFiles
import Verif.Spec.ClientForward
import Verif.Spec.ClientTools
import Verif.Spec.ClientWrites
import Verif.Spec.Device
import Verif.Spec.Egress
import Verif.Spec.EnclaveCli
import Verif.Spec.EnvBorsh
import Verif.Spec.Format
import Verif.Spec.FormatMsg
import Verif.Spec.Forward
import Verif.Spec.Genesis
import Verif.Spec.HostCli
import Verif.Spec.HostRoutes
import Verif.Spec.Init
import Verif.Spec.Ip
import Verif.Spec.Json
import Verif.Spec.JsonText
import Verif.Spec.KeyFormat
import Verif.Spec.Launcher
import Verif.Spec.Lifecycle
import Verif.Spec.Moments
import Verif.Spec.NChooseK
import Verif.Spec.Net
import Verif.Spec.NetLive
import Verif.Spec.NsmProvider
import Verif.Spec.Parser
import Verif.Spec.Pool
import Verif.Spec.Prompts
import Verif.Spec.Proxy
import Verif.Spec.ProxyLive
import Verif.Spec.Quorum
import Verif.Spec.Reaper
import Verif.Spec.Reprint
import Verif.Spec.Secrecy
import Verif.Spec.SignedEcho
import Verif.Spec.SockAddr
import Verif.Spec.Toy
import Verif.Spec.Tunnel
import Verif.Spec.TunnelPackets
import Verif.Spec.Wire
import Verif.Spec.Yubikey
