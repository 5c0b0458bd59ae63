import Verif.Xml

/-!
# Trees as text, for the examples only
-/

namespace Verif

/-- The part of a tag after `}`. -/
def Xml.localTag (t : Str) : Str := (t.reverse.takeWhile (fun c => c != '}')).reverse

mutual
/-- The tree with local names, without escaping. -/
def Xml.render : Xml → Str
  | .mk tag attrs text kids =>
    ['<'] ++ localTag tag ++ attrs.flatMap (fun p => [' '] ++ p.1 ++ ['='] ++ p.2) ++ ['>'] ++ text.getD [] ++
      renders kids ++ ['<', '/', '>']
termination_by structural e => e
/-- The children. -/
def Xml.renders : List Xml → Str
  | [] => []
  | k :: ks => render k ++ renders ks
termination_by structural l => l
end

/-- The rendering of a result. -/
def rendered {ε : Type} : Except ε Xml → Option Str
  | .ok e => some e.render
  | .error _ => none

end Verif
