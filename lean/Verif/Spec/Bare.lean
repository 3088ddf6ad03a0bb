import Verif.Model.Codegen

/-! Modules without abbreviations: constraints and extension markers left out, the tagging of each tag written out. -/

namespace Asn1go.Spec

mutual

/-- The type without constraints and extension markers, with the tagging of each tag; `d` is the default of the module. -/
def bare (d : Int) : MTy → MTy
  | .constrained t _ => bare d t
  | .tagged tag t k written => .tagged tag (bare d t) (if written then k else d) true
  | .sequence a b => .sequence (bareComponents d a ++ bareComponents d b) []
  | .set a b => .set (bareComponents d a ++ bareComponents d b) []
  | .sequenceOf t => .sequenceOf (bare d t)
  | .setOf t => .setOf (bare d t)
  | .choice alts exts => .choice (bareAlternatives d alts) exts
  | t => t

def bareComponents (d : Int) : List MComponent → List MComponent
  | [] => []
  | .named (.mk n t) o v :: l => .named (.mk n (bare d t)) o v :: bareComponents d l
  | .componentsOf t :: l => .componentsOf (bare d t) :: bareComponents d l
  | .nil :: l => .nil :: bareComponents d l

def bareAlternatives (d : Int) : List MNamed → List MNamed
  | [] => []
  | .mk n t :: l => .mk n (bare d t) :: bareAlternatives d l

end

def bareAssignment (d : Int) : MAssignment → MAssignment
  | .type n t => .type n (bare d t)
  | .value n t v => .value n (bare d t) v
  | .nil => .nil

/-- The module without abbreviations; what is put as its default tagging does not matter then. -/
def bareModule (m : Module) (tags : Int) : Module :=
  { m with tagDefault := tags
           moduleBody := { m.moduleBody with assignmentList := m.moduleBody.assignmentList.map (bareAssignment m.tagDefault) } }

end Asn1go.Spec
