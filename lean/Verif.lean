import Verif.Lemmas.Ops
import Verif.Lemmas.Pack
import Verif.Lemmas.RLWhy
import Verif.Lemmas.TPLoad
import Verif.Lemmas.TPWhy
import Verif.Lemmas.TPOps
import Verif.Spec.Trace
import Verif.Spec.RoundLoader
import Verif.Spec.ToyReach
import Verif.Lemmas.Hist
import Verif.Lemmas.RLInv
import Verif.Lemmas.RLEvo
import Verif.Lemmas.RLFx
import Verif.Lemmas.Locked
import Verif.Lemmas.RunPre
import Verif.Lemmas.RLHist
import Verif.Lemmas.RLLive
import Verif.Spec.TokenProxy
import Verif.Spec.ToyTP
import Verif.Spec.ToyReachTP
import Verif.Lemmas.TPInv
import Verif.Lemmas.TPOrigin
import Verif.Lemmas.TPBack
import Verif.Lemmas.TPFx
import Verif.Lemmas.TPMoney
import Verif.Lemmas.TPFee
import Verif.Lemmas.WView
import Verif.Lemmas.WRun
import Verif.Lemmas.WFx
import Verif.Lemmas.WHist
import Verif.Lemmas.TPPay
import Verif.Lemmas.WReq
import Verif.Spec.ToyReachW
import Verif.Spec.ToySteps
import Verif.Props.Quorum
import Verif.Props.Arith
import Verif.Props.Encoding
import Verif.Props.Text
import Verif.Props.Rounds
import Verif.Props.Proposals
import Verif.Props.Admin
import Verif.Props.Requests
import Verif.Spec.Payouts
import Verif.Lemmas.WPay
import Verif.Lemmas.Daily
import Verif.Spec.Daily
import Verif.Lemmas.DailyAll
import Verif.Props.Daily
import Verif.Props.Payouts
import Verif.Spec.Deposits
import Verif.Spec.LifeCycle
import Verif.Spec.ToyMore
import Verif.Lemmas.TPDep
import Verif.Lemmas.TPFill
import Verif.Lemmas.WLife
import Verif.Spec.Vault
import Verif.Spec.ToyDep
import Verif.Spec.Backing
import Verif.Spec.Backed
import Verif.Lemmas.Vault
import Verif.Lemmas.VaultOf
import Verif.Lemmas.TPMisc
import Verif.Props.LifeCycle
import Verif.Props.Deposits
import Verif.Props.Backing
import Verif.Props.Backed
import Verif.Spec.Closing
import Verif.Spec.ToyClose
import Verif.Spec.Payload
import Verif.Spec.ToyForge
import Verif.Lemmas.DepHist
import Verif.Props.Closing
import Verif.Props.Payload
import Verif.Props.Decimals
import Verif.Spec.Global
import Verif.Lemmas.Conserve
import Verif.Props.Global
import Verif.Client.Bridge
import Verif.NativeProxy.Processor
import Verif.Spec.Native
import Verif.Spec.ToyNative
import Verif.Lemmas.NPFx
import Verif.Props.Native
import Verif.Spec.Client
import Verif.Spec.ToyClient
import Verif.Spec.ToyClientTP
import Verif.Spec.ToyTactic
import Verif.Lemmas.Live
import Verif.Lemmas.LiveRL
import Verif.Lemmas.LiveTP
import Verif.Lemmas.LivePay
import Verif.Lemmas.LiveDep
import Verif.Lemmas.LiveReq
import Verif.Lemmas.LiveTok
import Verif.Lemmas.LiveFill
import Verif.Props.ClientRL
import Verif.Props.ClientTP
import Verif.Props.ClientPay
import Verif.Props.ClientDep
import Verif.Props.ClientReq
import Verif.Spec.NativeUse
import Verif.Lemmas.LiveNP
import Verif.Props.ClientMore
import Verif.Client.Wasm
import Verif.Client.View
import Verif.Spec.Js
import Verif.Spec.View
import Verif.Props.ClientJs
import Verif.Props.View
import Verif.Spec.Votes
import Verif.Lemmas.LiveVotes
import Verif.Lemmas.VotesHist
import Verif.Props.Confirm
import Verif.Spec.Block
import Verif.Lemmas.Block
import Verif.Props.Block
import Verif.Spec.Usable
import Verif.Lemmas.Multi
import Verif.Lemmas.Backed
import Verif.Props.Usable
import Verif.Props.Fees
import Verif.Props.Reachable
import Verif.Props.Expiry
import Verif.Spec.Local
import Verif.Lemmas.Local
import Verif.Props.Local
import Verif.Spec.Order
import Verif.Lemmas.Order
import Verif.Props.Order
import Verif.Spec.Upload
import Verif.Lemmas.Upload
import Verif.Props.Upload
import Verif.Lemmas.Redeem
import Verif.Props.Redeem
import Verif.Props.RedeemMore
import Verif.Spec.Rent
import Verif.Lemmas.Rent
import Verif.Props.Rent
import Verif.Lemmas.Held
import Verif.Props.Held
import Verif.Spec.Bill
import Verif.Lemmas.Bill
import Verif.Lemmas.BillRL
import Verif.Lemmas.BillTP
import Verif.Lemmas.BillNP
import Verif.Props.Bill
import Verif.Spec.Retry
import Verif.Lemmas.RetryRL
import Verif.Lemmas.RetryTP
import Verif.Props.Retry
import Verif.Spec.Day
import Verif.Lemmas.Day
import Verif.Spec.Grants
import Verif.Lemmas.Mono
import Verif.Lemmas.MonoRL
import Verif.Lemmas.MonoTP
import Verif.Props.Grants
import Verif.Spec.Logs
import Verif.Lemmas.Logs
import Verif.Lemmas.LogStatus
import Verif.Props.Logs
import Verif.Spec.Wire
import Verif.Props.Wire
import Verif.Spec.Address
import Verif.Props.Address
import Verif.Spec.Figures
import Verif.Props.Figures
import Verif.Spec.Control
import Verif.Props.Control
import Verif.Spec.Places
import Verif.Lemmas.Named
import Verif.Props.Tokens
import Verif.Lemmas.NamedReq
import Verif.Lemmas.NamedRL
import Verif.Props.Transfers
import Verif.Spec.Signers
import Verif.Spec.ToyStolen
import Verif.Lemmas.Signers
import Verif.Props.Signers
import Verif.Spec.Consent
import Verif.Spec.ToyAlone
import Verif.Lemmas.Consent
import Verif.Props.Consent
import Verif.Spec.Origin
import Verif.Lemmas.Origin
import Verif.Props.Origin
import Verif.Spec.OriginTP
import Verif.Props.OriginTP
import Verif.Spec.OriginDep
import Verif.Props.OriginDep
import Verif.Spec.OriginTok
import Verif.Props.OriginTok
import Verif.Spec.OriginProp
import Verif.Lemmas.OriginProp
import Verif.Props.OriginProp
import Verif.Spec.Repair
import Verif.Lemmas.Repair
import Verif.Props.Repair
