import Verif.Model.CodeGen

/-!
# What the generated interface files must contain

For every function of the lists: a tag type, a declaration of the extern "C" routine, a declaration and a definition of the
call operator.  The call operator has one pointer parameter `v0`, `v1`, … for every argument and passes them to the routine
in the same order.
-/

namespace BB.SpecGen

open BB.Gen (Text Fn Data)

/-- A piece of text. -/
@[irreducible] def t (s : Text) : Text := s

/-- The items separated by a comma and a blank. -/
def commaList (l : List Text) : Text := List.intercalate (t (text ", ")) l

/-- Name of parameter number `i`. -/
def paramName (i : Nat) : Text := t (text "v") ++ Nat.toDigits 10 i

/-- `const int* v0, float* v1, …` -/
def params (f : Fn) : Text := commaList (f.args.mapIdx fun i a => a ++ t (text "* ") ++ paramName i)

/-- `v0, v1, …`: the parameters in order. -/
def forwarded (f : Fn) : Text := commaList ((List.range f.args.length).map paramName)

/-- `const int*, float*, …` -/
def types (f : Fn) : Text := commaList (f.args.map fun a => a ++ t (text "*"))

/-- `float sasum_(const int*, const float*, const int*);` -/
def prototype (pre post : Text) (f : Fn) : Text :=
  f.ret ++ t (text " ") ++ pre ++ f.name ++ post ++ t (text "(") ++ types f ++ t (text ");\n")

/-- Tag type and its name. -/
def tag (f : Fn) : Text :=
  t (text "struct ") ++ f.name ++ t (text "\n{\n    static std::string name() { return \"") ++ f.name ++ t (text "\"; }\n};\n\n")

/-- Declaration of the call operator. -/
def declaration (lib : Text) (f : Fn) : Text :=
  t (text "template <>\nstruct BlasInterface <") ++ lib ++ t (text ", ") ++ f.name ++ t (text ">\n{\n    ") ++ f.ret ++ t (text " operator() (") ++ params f ++
    t (text ") const;\n};\n\n")

/-- Definition of the call operator: it calls the routine with all its parameters in order. -/
def definition (lib pre post : Text) (f : Fn) : Text :=
  f.ret ++ t (text " BlasInterface <") ++ lib ++ t (text ", ") ++ f.name ++ t (text ">::operator() (\n    ") ++ params f ++ t (text ") const\n{\n    return ::") ++
    pre ++ f.name ++ post ++ t (text "(") ++ forwarded f ++ t (text ");\n}\n\n")

/-- How a C++ compiler reads a list in parentheses: the items between the commas. -/
def items : Text → List Text
  | [] => [[]]
  | ',' :: ' ' :: r => [] :: items r
  | c :: r =>
    match items r with
    | p :: ps => (c :: p) :: ps
    | [] => [[c]]

end BB.SpecGen
