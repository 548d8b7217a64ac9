import Verif.Model.Agree
import Verif.Model.Asym
import Verif.Model.Balance
import Verif.Model.Basic
import Verif.Model.Cenc
import Verif.Model.CencSpec
import Verif.Model.Cipher
import Verif.Model.CipherSpec
import Verif.Model.Client
import Verif.Model.ClientCenc
import Verif.Model.ClientLib
import Verif.Model.ClientMem
import Verif.Model.ClientRet
import Verif.Model.Container
import Verif.Model.Crypto
import Verif.Model.Dispatch
import Verif.Model.EngineCipher
import Verif.Model.EngineDigest
import Verif.Model.EngineKey
import Verif.Model.EngineLoad
import Verif.Model.EngineMac
import Verif.Model.EnginePkey
import Verif.Model.Evp
import Verif.Model.EvpSpec
import Verif.Model.Exchange
import Verif.Model.Info
import Verif.Model.Inquiry
import Verif.Model.Iso8601
import Verif.Model.Json
import Verif.Model.Kc
import Verif.Model.Kdf
import Verif.Model.KdfSpec
import Verif.Model.KeyHistory
import Verif.Model.KeyMake
import Verif.Model.KeyStore
import Verif.Model.KeyType
import Verif.Model.Layout
import Verif.Model.Mac
import Verif.Model.MacSpec
import Verif.Model.Memory
import Verif.Model.ObjectStore
import Verif.Model.Pad
import Verif.Model.ProviderCipher
import Verif.Model.ProviderDigest
import Verif.Model.ProviderExch
import Verif.Model.ProviderGen
import Verif.Model.ProviderKdf
import Verif.Model.ProviderKey
import Verif.Model.ProviderLoad
import Verif.Model.ProviderRsa
import Verif.Model.ProviderSign
import Verif.Model.Provision
import Verif.Model.Random
import Verif.Model.Rights
import Verif.Model.RootKeys
import Verif.Model.SafeBag
import Verif.Model.Session
import Verif.Model.Sign
import Verif.Model.Slots
import Verif.Model.Soc
import Verif.Model.StoreConc
import Verif.Model.StoreExcl
import Verif.Model.StoreHistory
import Verif.Model.StoredKey
import Verif.Model.Svp
import Verif.Model.SvpApp
import Verif.Model.TaCall
import Verif.Model.Typej
import Verif.Model.TypejRights
import Verif.Model.Unwrap
import Verif.Model.UnwrapSpec
import Verif.Model.Whole
import Verif.Model.WholeCenc
import Verif.Lemmas.Balance
import Verif.Lemmas.Cenc
import Verif.Lemmas.CencContent
import Verif.Lemmas.CencFail
import Verif.Lemmas.CencSample
import Verif.Lemmas.CencSim
import Verif.Lemmas.CencVerify
import Verif.Lemmas.Cipher
import Verif.Lemmas.CipherCtx
import Verif.Lemmas.CipherKeep
import Verif.Lemmas.CipherPair
import Verif.Lemmas.CipherRun
import Verif.Lemmas.CipherWatch
import Verif.Lemmas.Client
import Verif.Lemmas.ClientLib
import Verif.Lemmas.ClientRet
import Verif.Lemmas.Container
import Verif.Lemmas.Crypto
import Verif.Lemmas.Derive
import Verif.Lemmas.Dispatch
import Verif.Lemmas.Evp
import Verif.Lemmas.EvpRun
import Verif.Lemmas.Holds
import Verif.Lemmas.Inquiry
import Verif.Lemmas.Kc
import Verif.Lemmas.KcLife
import Verif.Lemmas.Kdf
import Verif.Lemmas.KeyHistory
import Verif.Lemmas.KeyStore
import Verif.Lemmas.Layout
import Verif.Lemmas.Lineage
import Verif.Lemmas.Mac
import Verif.Lemmas.Memory
import Verif.Lemmas.Netflix
import Verif.Lemmas.NetflixRun
import Verif.Lemmas.ObjectStore
import Verif.Lemmas.Pad
import Verif.Lemmas.ProviderCipher
import Verif.Lemmas.Rights
import Verif.Lemmas.RootKeys
import Verif.Lemmas.Slots
import Verif.Lemmas.Soc
import Verif.Lemmas.SocSample
import Verif.Lemmas.StoreConc
import Verif.Lemmas.StoreConcStep
import Verif.Lemmas.StoreExcl
import Verif.Lemmas.StoreHistory
import Verif.Lemmas.Svp
import Verif.Lemmas.TaCall
import Verif.Lemmas.Typej
import Verif.Lemmas.TypejSample
import Verif.Lemmas.Unwrap
import Verif.Lemmas.UnwrapComplete
import Verif.Lemmas.UnwrapOp
import Verif.Lemmas.Whole
import Verif.Lemmas.WholeCenc
import Verif.Lemmas.WholeKeys
import Verif.Lemmas.WholeSvp
import Verif.Lemmas.WithKey
import Verif.Props.C01
import Verif.Props.C02
import Verif.Props.C03
import Verif.Props.C04
import Verif.Props.C05
import Verif.Props.C06
import Verif.Props.C07
import Verif.Props.C08
import Verif.Props.C09
import Verif.Props.C10
import Verif.Props.C100
import Verif.Props.C101
import Verif.Props.C102
import Verif.Props.C103
import Verif.Props.C104
import Verif.Props.C105
import Verif.Props.C106
import Verif.Props.C107
import Verif.Props.C108
import Verif.Props.C109
import Verif.Props.C11
import Verif.Props.C110
import Verif.Props.C111
import Verif.Props.C112
import Verif.Props.C113
import Verif.Props.C114
import Verif.Props.C115
import Verif.Props.C116
import Verif.Props.C117
import Verif.Props.C118
import Verif.Props.C12
import Verif.Props.C13
import Verif.Props.C14
import Verif.Props.C15
import Verif.Props.C16
import Verif.Props.C17
import Verif.Props.C18
import Verif.Props.C19
import Verif.Props.C20
import Verif.Props.C21
import Verif.Props.C22
import Verif.Props.C23
import Verif.Props.C24
import Verif.Props.C25
import Verif.Props.C26
import Verif.Props.C27
import Verif.Props.C28
import Verif.Props.C29
import Verif.Props.C30
import Verif.Props.C31
import Verif.Props.C32
import Verif.Props.C33
import Verif.Props.C34
import Verif.Props.C35
import Verif.Props.C36
import Verif.Props.C37
import Verif.Props.C38
import Verif.Props.C39
import Verif.Props.C40
import Verif.Props.C41
import Verif.Props.C42
import Verif.Props.C43
import Verif.Props.C44
import Verif.Props.C45
import Verif.Props.C46
import Verif.Props.C47
import Verif.Props.C48
import Verif.Props.C49
import Verif.Props.C50
import Verif.Props.C51
import Verif.Props.C52
import Verif.Props.C53
import Verif.Props.C54
import Verif.Props.C55
import Verif.Props.C56
import Verif.Props.C57
import Verif.Props.C58
import Verif.Props.C59
import Verif.Props.C60
import Verif.Props.C61
import Verif.Props.C62
import Verif.Props.C63
import Verif.Props.C64
import Verif.Props.C65
import Verif.Props.C66
import Verif.Props.C67
import Verif.Props.C68
import Verif.Props.C69
import Verif.Props.C70
import Verif.Props.C71
import Verif.Props.C72
import Verif.Props.C73
import Verif.Props.C74
import Verif.Props.C75
import Verif.Props.C76
import Verif.Props.C77
import Verif.Props.C78
import Verif.Props.C79
import Verif.Props.C80
import Verif.Props.C81
import Verif.Props.C82
import Verif.Props.C83
import Verif.Props.C84
import Verif.Props.C85
import Verif.Props.C86
import Verif.Props.C87
import Verif.Props.C88
import Verif.Props.C89
import Verif.Props.C90
import Verif.Props.C91
import Verif.Props.C92
import Verif.Props.C93
import Verif.Props.C94
import Verif.Props.C95
import Verif.Props.C96
import Verif.Props.C97
import Verif.Props.C98
import Verif.Props.C99
