import Verif.Ata
import Verif.Basic
import Verif.Borsh
import Verif.CliArgs
import Verif.CliCommands
import Verif.CliMain
import Verif.CliRun
import Verif.CliText
import Verif.Clients
import Verif.CloseLemmas
import Verif.Conformance.Cli
import Verif.Conformance.Close
import Verif.Conformance.Common
import Verif.Conformance.CreateMint
import Verif.Conformance.Pointer
import Verif.Conformance.Sync22
import Verif.Conformance.SyncSpl
import Verif.Conformance.Unwrap
import Verif.Conformance.Wrap
import Verif.Conserve
import Verif.CpiLemmas
import Verif.CreateMintLemmas
import Verif.Custody
import Verif.Custom
import Verif.CustomInv
import Verif.Customizer
import Verif.Errors
import Verif.Examples
import Verif.Freeze
import Verif.Idl
import Verif.Instruction
import Verif.JsClient
import Verif.JsExample
import Verif.Layout
import Verif.Locality
import Verif.Message
import Verif.Metadata
import Verif.Metaplex
import Verif.MintLife
import Verif.MplLayout
import Verif.Pda
import Verif.PdaLemmas
import Verif.Processor
import Verif.ProcessorLemmas
import Verif.Props.Addresses
import Verif.Props.Atomic
import Verif.Props.Backpointer
import Verif.Props.Books
import Verif.Props.Builders
import Verif.Props.Cli
import Verif.Props.CliArgs
import Verif.Props.CliJourney
import Verif.Props.CliMain
import Verif.Props.CliOffline
import Verif.Props.CliRun
import Verif.Props.CliRunExample
import Verif.Props.CliSync
import Verif.Props.CliText
import Verif.Props.Clients
import Verif.Props.Close
import Verif.Props.Codec
import Verif.Props.Conserve
import Verif.Props.ConserveExample
import Verif.Props.CreateMint
import Verif.Props.Custody
import Verif.Props.Custom
import Verif.Props.Decimals
import Verif.Props.Descent
import Verif.Props.Exact
import Verif.Props.ExactSync
import Verif.Props.Extra
import Verif.Props.Flags
import Verif.Props.Funds
import Verif.Props.History
import Verif.Props.HistoryExample
import Verif.Props.Idl
import Verif.Props.Isolation
import Verif.Props.Journey
import Verif.Props.JourneySync
import Verif.Props.Js
import Verif.Props.JsTokenAccount
import Verif.Props.Lamports
import Verif.Props.Layout
import Verif.Props.Liveness
import Verif.Props.Message
import Verif.Props.Metaplex
import Verif.Props.MetaplexTable
import Verif.Props.MintLife
import Verif.Props.MplLayout
import Verif.Props.Negative
import Verif.Props.NeverBlocked
import Verif.Props.NeverBlockedExample
import Verif.Props.NoFreezer
import Verif.Props.Offline
import Verif.Props.Pda
import Verif.Props.PermanentDelegate
import Verif.Props.Permissionless
import Verif.Props.Pointer
import Verif.Props.PostState
import Verif.Props.Redeem
import Verif.Props.Rent
import Verif.Props.RentCli
import Verif.Props.Reported
import Verif.Props.Schedule
import Verif.Props.Signers
import Verif.Props.Snapshot
import Verif.Props.Source
import Verif.Props.Split
import Verif.Props.Sync22
import Verif.Props.SyncRepeat
import Verif.Props.SyncSpl
import Verif.Props.Tower
import Verif.Props.TowerSync
import Verif.Props.TwoPairs
import Verif.Props.Unwrap
import Verif.Props.Users
import Verif.Props.Wrap
import Verif.Rent
import Verif.Reported
import Verif.Runtime
import Verif.Serde
import Verif.Spec
import Verif.State
import Verif.Sync22Lemmas
import Verif.SyncSplLemmas
import Verif.Token
import Verif.TokenEffect
import Verif.TokenLemmas
import Verif.World
import Verif.WorldInv
import Verif.WorldKeys
import Verif.WorldMint
import Verif.WorldSteps
import Verif.WorldToken
import Verif.WorldWrap
import Verif.WrapLemmas
