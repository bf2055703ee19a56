import Verif.Disdrom.LoggerProps
import Verif.Disdrom.PipeProps
import Verif.Disdrom.ThiesProps
import Verif.Disdrom.Rd80Props
