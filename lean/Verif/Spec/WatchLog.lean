import Verif.Model.WatchLog

namespace Gevulot.WatchLog.Spec

open CliModel (Text readServerConfig)

/-- There is no file, or what is in it is no configuration. -/
def bad (t : Option Text) : Bool := decide (readServerConfig t = none)

end Gevulot.WatchLog.Spec
