import Verif.Basic.Res
import Verif.Basic.Bytes
import Verif.Basic.Reader
import Verif.Basic.Writer
import Verif.Basic.Enum
import Verif.Basic.Bitfield
import Verif.Basic.Utf8
import Verif.Basic.Tactics
