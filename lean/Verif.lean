import Verif.Basic
import Verif.Basic.BitSet
import Verif.Basic.Bitfield
import Verif.Basic.Bytes
import Verif.Basic.Enum
import Verif.Basic.Inversion
import Verif.Basic.Reader
import Verif.Basic.Res
import Verif.Basic.Tactics
import Verif.Basic.Utf8
import Verif.Basic.Writer
import Verif.Lemmas.Aes
import Verif.Lemmas.Blind
import Verif.Lemmas.Buffer
import Verif.Lemmas.EapolSerde
import Verif.Lemmas.Elements
import Verif.Lemmas.F32
import Verif.Lemmas.Fcf
import Verif.Lemmas.Frames
import Verif.Lemmas.Ht
import Verif.Lemmas.Local
import Verif.Lemmas.ParserSafe
import Verif.Lemmas.Rsn
import Verif.Lemmas.Safety
import Verif.Lemmas.Steady
import Verif.Lemmas.Tim
import Verif.Lemmas.Verdict
import Verif.Lemmas.WrAt
import Verif.Model.Attempt
import Verif.Model.ByteOrder
import Verif.Model.Common
import Verif.Model.CommonTypes
import Verif.Model.Crypto.CryptoHeader
import Verif.Model.Crypto.Eapol
import Verif.Model.Crypto.EapolSerde
import Verif.Model.Crypto.KeyMgmt
import Verif.Model.Crypto.Michael
import Verif.Model.Defaults
import Verif.Model.Display
import Verif.Model.ElementTypes
import Verif.Model.Elements.Compare
import Verif.Model.Elements.Core
import Verif.Model.Elements.Ht
import Verif.Model.Elements.MeshPeering
import Verif.Model.Elements.RateMacros
import Verif.Model.Elements.Rates
import Verif.Model.Elements.Rsn
import Verif.Model.Elements.Simple
import Verif.Model.Elements.Table
import Verif.Model.Elements.Tim
import Verif.Model.Elements.Vendor
import Verif.Model.Frames.Builder
import Verif.Model.Frames.Control
import Verif.Model.Frames.Data
import Verif.Model.Frames.Generic
import Verif.Model.Frames.Mgmt
import Verif.Model.Hash
import Verif.Model.InPlace
import Verif.Model.Offset
import Verif.Model.Order
import Verif.Model.Release
import Verif.Props.C01
import Verif.Props.C02
import Verif.Props.C02Rsn
import Verif.Props.C03
import Verif.Props.C04
import Verif.Props.C05
import Verif.Props.C06
import Verif.Props.C07
import Verif.Props.C08
import Verif.Props.C09
import Verif.Props.C10
import Verif.Props.C100
import Verif.Props.C101
import Verif.Props.C102
import Verif.Props.C103
import Verif.Props.C104
import Verif.Props.C105
import Verif.Props.C106
import Verif.Props.C107
import Verif.Props.C108
import Verif.Props.C109
import Verif.Props.C11
import Verif.Props.C110
import Verif.Props.C111
import Verif.Props.C112
import Verif.Props.C113
import Verif.Props.C114
import Verif.Props.C115
import Verif.Props.C116
import Verif.Props.C117
import Verif.Props.C118
import Verif.Props.C12
import Verif.Props.C13
import Verif.Props.C14
import Verif.Props.C15
import Verif.Props.C16
import Verif.Props.C17
import Verif.Props.C18
import Verif.Props.C19
import Verif.Props.C20
import Verif.Props.C21
import Verif.Props.C22
import Verif.Props.C23
import Verif.Props.C24
import Verif.Props.C25
import Verif.Props.C26
import Verif.Props.C27
import Verif.Props.C28
import Verif.Props.C29
import Verif.Props.C30
import Verif.Props.C31
import Verif.Props.C32
import Verif.Props.C33
import Verif.Props.C34
import Verif.Props.C35
import Verif.Props.C36
import Verif.Props.C37
import Verif.Props.C38
import Verif.Props.C39
import Verif.Props.C40
import Verif.Props.C41
import Verif.Props.C42
import Verif.Props.C43
import Verif.Props.C44
import Verif.Props.C45
import Verif.Props.C46
import Verif.Props.C47
import Verif.Props.C48
import Verif.Props.C49
import Verif.Props.C50
import Verif.Props.C51
import Verif.Props.C52
import Verif.Props.C53
import Verif.Props.C54
import Verif.Props.C55
import Verif.Props.C56
import Verif.Props.C57
import Verif.Props.C58
import Verif.Props.C59
import Verif.Props.C60
import Verif.Props.C61
import Verif.Props.C62
import Verif.Props.C63
import Verif.Props.C64
import Verif.Props.C65
import Verif.Props.C66
import Verif.Props.C67
import Verif.Props.C68
import Verif.Props.C69
import Verif.Props.C70
import Verif.Props.C71
import Verif.Props.C72
import Verif.Props.C73
import Verif.Props.C74
import Verif.Props.C75
import Verif.Props.C76
import Verif.Props.C77
import Verif.Props.C78
import Verif.Props.C79
import Verif.Props.C80
import Verif.Props.C81
import Verif.Props.C82
import Verif.Props.C83
import Verif.Props.C84
import Verif.Props.C85
import Verif.Props.C86
import Verif.Props.C87
import Verif.Props.C88
import Verif.Props.C89
import Verif.Props.C90
import Verif.Props.C91
import Verif.Props.C92
import Verif.Props.C93
import Verif.Props.C94
import Verif.Props.C95
import Verif.Props.C96
import Verif.Props.C97
import Verif.Props.C98
import Verif.Props.C99
import Verif.Spec.Aes
import Verif.Spec.Basic
import Verif.Spec.Cmac
import Verif.Spec.Codes
import Verif.Spec.Crc
import Verif.Spec.Elements
import Verif.Spec.Frames
import Verif.Spec.Iter
import Verif.Spec.KeyWrap
import Verif.Spec.Parsers
import Verif.Spec.Rsn
import Verif.Spec.Sha1
import Verif.Spec.Sha2
import Verif.Spec.Utf8
import Verif.Spec.Verdict
import Verif.Tests.Crypto
import Verif.Tests.Upstream
