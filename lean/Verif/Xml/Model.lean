import Verif.Basic

/-!
# XML responses

`XMLResponse.make_response` (`/repo/lilya/responses.py` lines 1438-1479) writes a Python value as XML
text.
-/

namespace Verif.Xml

/-- The values: dictionaries, lists, and everything else, which is written by `str()`.

Simplification: keys are texts (others are written by `str()` too); the tests for `None`, `str` and
`bytes` at the top (`/repo/lilya/responses.py` lines 1448-1455) pass their content on as it is and
are left out. -/
inductive Val where
  | text (s : Str)
  | dict (entries : List (Str × Val))
  | list (items : List Val)

/-- `<tag>` (`/repo/lilya/responses.py` line 1461). -/
def openTag (tag : Str) : Str := '<' :: (tag ++ ['>'])

/-- `</tag>` (`/repo/lilya/responses.py` line 1461). -/
def closeTag (tag : Str) : Str := '<' :: '/' :: (tag ++ ['>'])

mutual
/-- `to_xml` (`/repo/lilya/responses.py` lines 1457-1467). -/
def toXml (tag : Str) : Val → Str
  | .text s => openTag tag ++ s ++ closeTag tag
  | .dict es => openTag tag ++ entriesXml es ++ closeTag tag
  | .list vs => itemsXml tag vs
/-- `"".join(to_xml(v, k) for k, v in value.items())` (`/repo/lilya/responses.py` lines 1460, 1471). -/
def entriesXml : List (Str × Val) → Str
  | [] => []
  | (k, v) :: rest => toXml k v ++ entriesXml rest
/-- `"".join(to_xml(item, tag) for item in value)` (`/repo/lilya/responses.py` lines 1465, 1476). -/
def itemsXml (tag : Str) : List Val → Str
  | [] => []
  | v :: rest => toXml tag v ++ itemsXml tag rest
end

/-- The tag of the whole (`/repo/lilya/responses.py` lines 1472, 1476, 1478). -/
def root : Str := "root".toList

/-- The body of an `XMLResponse` (`/repo/lilya/responses.py` lines 1469-1480), before it is encoded. -/
def body : Val → Str
  | .dict es => openTag root ++ entriesXml es ++ closeTag root
  | .list vs => itemsXml root vs
  | .text s => openTag root ++ s ++ closeTag root

end Verif.Xml
