import Verif.Agg.Prog
import Verif.Wire.Time
/-
Model of the page of connections, opennsa/viewresource.py.
-/
namespace OpenNSA.View
open Py

/-- Exceptions while the page is made. -/
inductive ViewErr
  | attributeError      -- `None.replace`, line 68
  | typeError           -- `request.write` of a text, lines 85-87
  deriving DecidableEq, Repr

/-- `HTML_HEADER % {'title': title}`, viewresource.py:15-22, 85. -/
def header (title : Str) : Str :=
  "<!DOCTYPE html>\n<html>\n    <head>\n        <meta http-equiv=\"Content-Type\" content=\"text/html; charset=utf-8\" />\n        <title>".toList ++ title ++
    "</title>\n    </head>\n    <body>\n".toList

/-- `HTML_FOOTER`, viewresource.py:24-26. -/
def footer : Str := "   </body>\n</html>\n".toList

/-- The beginning of the body, viewresource.py:46-59. -/
def tableHead : Str :=
  ("\n        <h3>Connections</h3>\n        <p>\n        <table style=\"width:95%\" border=1>\n            <thead>\n                <tr>\n" ++
   "                    <th>Connection Id</th>\n                    <th>Lifecycle state</th>\n                    <th>Source</th>\n" ++
   "                    <th>Destination</th>\n                    <th>Start time</th>\n                    <th>End time</th>\n" ++
   "                </tr>\n            </thead>\n            <tbody>").toList

/-- Lifecycle states as stored, state.py:32-36. -/
def stateText : LState → Str
  | .created => "Created".toList
  | .failed => "Failed".toList
  | .passedEnd => "PassedEndTime".toList
  | .terminating => "Terminating".toList
  | .terminated => "Terminated".toList

/-- `source` and `dest`, viewresource.py:64-65. Label objects are always true. -/
def endText (s : STP) : Str := s.network ++ ':' :: (s.port ++ (match s.label with | some l => ':' :: l.labelValue | none => []))

/-- `str(t.replace(microsecond=0))`, viewresource.py:67-68: `datetime.__str__` without time zone and microseconds. -/
def timeText (t : Int) : Str :=
  let d := Wire.ofInstant t
  Wire.pad 4 d.year ++ '-' :: (Wire.pad 2 d.month ++ '-' :: (Wire.pad 2 d.day ++ ' ' :: (Wire.pad 2 d.hour ++ ':' :: (Wire.pad 2 d.minute ++ ':' :: Wire.pad 2 d.second))))

/-- `start_time`, viewresource.py:67. -/
def startText : Option Int → Str
  | some t => timeText t
  | none => ['-']

/-- A cell of a row but the first, viewresource.py:73-77. -/
def cell (t : Str) : Str := "                    <th>".toList ++ (t ++ "</th>\n".toList)

/-- A row of the table, viewresource.py:70-79. -/
def rowText (id state source dest start end_ : Str) : Str :=
  "\n                 <tr>\n                    <th><div>".toList ++ (id ++ ("</div></th>\n".toList ++
    (cell state ++ (cell source ++ (cell dest ++ (cell start ++ (cell end_ ++ "                 </tr>\n            ".toList)))))))

/-- The rows, viewresource.py:61-79. -/
def rows : List Agg.CRow → Except ViewErr Str
  | [] => .ok []
  | c :: cs => match c.end_ with
    | none => .error .attributeError
    | some e => match rows cs with
      | .error x => .error x
      | .ok r => .ok (rowText c.cid (stateText c.st.l) (endText c.src) (endText c.dst) (startText c.start) (timeText e) ++ r)

/-- The text of the whole page: what is handed to `request.write`, viewresource.py:43-87. -/
def page (conns : List Agg.CRow) : Except ViewErr Str :=
  match rows conns with
  | .error x => .error x
  | .ok r => .ok (header "OpenNSA Connections".toList ++ (tableHead ++ (r ++ ("                </tbody>".toList ++ ("            </table>".toList ++ footer)))))

/-- `renderPage`, viewresource.py:41-89: what is sent. In Python 3 a text cannot be written to a connection: `write` raises a
`TypeError` (Twisted; trusted). -/
def renderPage (conns : List Agg.CRow) : Except ViewErr Str :=
  match page conns with
  | .error x => .error x
  | .ok _ => .error .typeError

end OpenNSA.View
