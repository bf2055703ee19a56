import Verif.Save.Level1b
import Verif.Save.Product
import Verif.Save.Other

/-!
Properties C129–C132: files on disk.
-/
