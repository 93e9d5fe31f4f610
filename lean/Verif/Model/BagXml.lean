import Mathlib.Data.List.Basic

/-!
# The metadata document of a BAG

The part of `_set_temporal_extents` (bathygrid/bgrid.py:1986-2064) between parsing the xml and writing it again.  Parsing and writing of xml, h5py and the bare `except` around everything are not
modelled; the two times are the strings after the conversions of lines 2018-2025.
-/

namespace Bathy

/-- an element of `xml.etree`: tag, attributes, text, children (bathygrid/bgrid.py:2016) -/
inductive Xml where
  | node (tag : String) (attrs : List (String × String)) (text : Option String) (children : List Xml)

namespace Xml

def tag : Xml → String | node t _ _ _ => t
def attrs : Xml → List (String × String) | node _ a _ _ => a
def text : Xml → Option String | node _ _ t _ => t
def children : Xml → List Xml | node _ _ _ c => c

/-- the element with other children -/
def withChildren : Xml → List Xml → Xml | node t a s _, c => node t a s c

/-- `elem.text = s` (bathygrid/bgrid.py:2056-2057) -/
def withText (s : String) : Xml → Xml | node t a _ c => node t a (some s) c

/-- `elem.findall('a/b/c')` for a path of tags: all elements reached, in the order of the document (bathygrid/bgrid.py:2039-2040, 2044) -/
def findAll : List String → Xml → List Xml
  | [], x => [x]
  | t :: ts, x => (x.children.filter (fun c => c.tag = t)).flatMap (findAll ts)

/-- apply a function to the first element of a list where it is defined -/
def firstMap {α : Type} (f : α → Option α) : List α → Option (List α)
  | [] => none
  | a :: l => match f a with
    | some a' => some (a' :: l)
    | none => (firstMap f l).map (a :: ·)

/-- change the element `findall(path)[0]` in place (bathygrid/bgrid.py:2056-2057); `none` when there is none -/
def modifyFirst : List String → (Xml → Xml) → Xml → Option Xml
  | [], f, x => some (f x)
  | t :: ts, f, x => (firstMap (fun c => if c.tag = t then modifyFirst ts f c else none) x.children).map x.withChildren

/-- namespaces (bathygrid/bgrid.py:2026-2029) -/
def gmd : String := "{http://www.isotc211.org/2005/gmd}"
def gml : String := "{http://www.opengis.net/gml/3.2}"
def bagschema : String := "{http://www.opennavsurf.org/schema/bag}"
def xsi : String := "{http://www.w3.org/2001/XMLSchema-instance}"

/-- `et.SubElement(parent, elem)` and the attributes of a new TimePeriod (bathygrid/bgrid.py:2046-2049).  `"TimePeriod" in elem` is true for one tag of the hierarchy only. -/
def newElem (t : String) : Xml := node t (if t = gml ++ "TimePeriod" then [(gml ++ "id", "temporal-extent-1"), (xsi ++ "type", "gml:TimePeriodType")] else []) none []

/-- the loop over the hierarchy (bathygrid/bgrid.py:2042-2051): go to the first child with the tag, or make one at the end; `f` is applied to the last parent -/
def ensure : List String → (Xml → Xml) → Xml → Xml
  | [], f, x => f x
  | t :: ts, f, x => match firstMap (fun c => if c.tag = t then some (ensure ts f c) else none) x.children with
    | some cs => x.withChildren cs
    | none => x.withChildren (x.children ++ [ensure ts f (newElem t)])

/-- `temporal_hierarchy` (bathygrid/bgrid.py:2036-2037) -/
def temporalHierarchy : List String :=
  [gmd ++ "identificationInfo", bagschema ++ "BAG_DataIdentification", gmd ++ "extent", gmd ++ "EX_Extent", gmd ++ "temporalElement", gmd ++ "EX_TemporalExtent", gmd ++ "extent", gml ++ "TimePeriod"]

/-- the paths searched (bathygrid/bgrid.py:2039-2040) -/
def beginPath : List String := temporalHierarchy ++ [gml ++ "beginPosition"]
def endPath : List String := temporalHierarchy ++ [gml ++ "endPosition"]

/-- an element with a text only; the code sets the text of a new element after making it (bathygrid/bgrid.py:2052-2057) -/
def leaf (t s : String) : Xml := node t [] (some s) []

/-- the elements added to the time period (bathygrid/bgrid.py:2052-2055) -/
def added (noBegin noEnd : Bool) (start stop : String) : List Xml :=
  (if noBegin then [leaf (gml ++ "beginPosition") start] else []) ++ (if noEnd then [leaf (gml ++ "endPosition") stop] else [])

/-- `_set_temporal_extents` between reading and writing (bathygrid/bgrid.py:2039-2057).  The elements found before are changed where they are; the elements made are given
their text at once. -/
def setTimes (start stop : String) (root : Xml) : Xml :=
  let noBegin := (findAll beginPath root).isEmpty
  let noEnd := (findAll endPath root).isEmpty
  let root := if noBegin || noEnd then ensure temporalHierarchy (fun p => p.withChildren (p.children ++ added noBegin noEnd start stop)) root else root
  let root := if noBegin then root else (modifyFirst beginPath (withText start) root).getD root
  if noEnd then root else (modifyFirst endPath (withText stop) root).getD root

end Xml

end Bathy
