/-
The text of the log.
-/
import Verif.Model.Context

namespace Knuckle

/-- The line written for one request, `src/context.cpp:169,171`; `stamp` is the text made by `strftime` at
`src/context.cpp:167`, `record` the trimmed request and the reply. -/
def logLine (stamp : Str) (record : Str × Str) : Str :=
  stamp ++ (b!" " ++ (record.1 ++ (b!" -> " ++ (record.2 ++ b!"\n"))))

/-- All the lines, one after the other (`std::endl` ends each; the file is opened for appending, `src/context.cpp:53`). -/
def logLines (stamps : List Str) (records : List (Str × Str)) : Str := (List.zipWith logLine stamps records).flatten

end Knuckle
