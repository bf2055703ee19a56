import Verif.Lidar.VaisalaProps
import Verif.Lidar.SelectProps
import Verif.Lidar.PollyProps
