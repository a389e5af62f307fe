import Verif.Audit
import Verif.Witness.Motion
import Verif.Witness.Wire
import Verif.Witness.Scan
import Verif.Witness.Text
import Verif.Witness.Limits
