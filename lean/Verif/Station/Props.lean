import Verif.Station.ToaProps
import Verif.Station.Csv
import Verif.Station.ToaStation
import Verif.Station.Sirta
import Verif.Station.Lines
import Verif.Station.Pipeline
import Verif.Station.Tables
