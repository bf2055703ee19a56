import Verif.Disdronator.LpmProps
import Verif.Disdronator.ParsivelProps
