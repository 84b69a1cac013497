import Verif.SpecCodeGen
import Mathlib.Data.List.Basic

/-!
# C109: regenerating the BLAS interface
-/

namespace BB.Gen

open BB.SpecGen

/-! ### Loops over arguments -/

theorem renderArgs_sep (g : Text → Nat → Text) (s : Text) (body : List Inn)
    (hb : ∀ a i l, body.flatMap (renderInn a i l) = g a i ++ (if l then [] else s)) (as : List Text) (k : Nat) :
    renderArgs body k as = List.intercalate s (as.mapIdx fun i a => g a (i + k)) := by
  induction as generalizing k with
  | nil => rfl
  | cons a as ih =>
    rw [renderArgs, hb, ih, List.mapIdx_cons]
    cases as with
    | nil => simp [List.intercalate]
    | cons b bs =>
      simp only [List.isEmpty_cons, Bool.false_eq_true, if_false, List.mapIdx_cons, Nat.zero_add]
      rw [List.intercalate_cons_cons]
      simp only [Nat.add_assoc, Nat.add_comm 1 k, List.append_assoc]

theorem renderArgs_params (f : Fn) :
    renderArgs [.arg, .txt (t (text "* v")), .index, .sep (t (text ", "))] 0 f.args = params f := by
  rw [renderArgs_sep (fun a i => a ++ t (text "* ") ++ paramName i) (t (text ", "))]
  · rfl
  · intro a i l
    have e : t (text "* v") = t (text "* ") ++ t (text "v") := by decide +kernel
    simp [renderInn, paramName, e]

theorem renderArgs_forwarded (f : Fn) :
    renderArgs [.txt (t (text "v")), .index, .sep (t (text ", "))] 0 f.args = forwarded f := by
  rw [renderArgs_sep (fun _ i => paramName i) (t (text ", "))]
  · rw [forwarded, commaList]
    congr 1
    apply List.ext_getElem
    · simp
    · intro i h1 h2; simp
  · intro a i l
    simp [renderInn, paramName]

theorem renderArgs_types (f : Fn) :
    renderArgs [.arg, .txt (t (text "*")), .sep (t (text ", "))] 0 f.args = types f := by
  rw [renderArgs_sep (fun a _ => a ++ t (text "*")) (t (text ", "))]
  · rw [types, commaList]
    congr 1
    apply List.ext_getElem
    · simp
    · intro i h1 h2; simp
  · intro a i l
    simp [renderInn]

/-! ### The parsed loops -/

def protoBody (pre post : Text) : List Mid :=
  [.ret, .txt (t (text " ") ++ pre), .name, .txt (post ++ t (text "(")), .forArgs [.arg, .txt (t (text "*")), .sep (t (text ", "))], .txt (t (text ");\n"))]

def tagBody : List Mid :=
  [.txt (t (text "struct ")), .name, .txt (t (text "\n{\n    static std::string name() { return \"")), .name, .txt (t (text "\"; }\n};\n\n"))]

def declBody (lib : Text) : List Mid :=
  [.txt (t (text "template <>\nstruct BlasInterface <") ++ lib ++ t (text ", ")), .name, .txt (t (text ">\n{\n    ")), .ret, .txt (t (text " operator() (")),
   .forArgs [.arg, .txt (t (text "* v")), .index, .sep (t (text ", "))], .txt (t (text ") const;\n};\n\n"))]

def defBody (lib pre post : Text) : List Mid :=
  [.ret, .txt (t (text " BlasInterface <") ++ lib ++ t (text ", ")), .name, .txt (t (text ">::operator() (\n    ")),
   .forArgs [.arg, .txt (t (text "* v")), .index, .sep (t (text ", "))],
   .txt (t (text ") const\n{\n    return ::") ++ pre), .name, .txt (post ++ t (text "(")), .forArgs [.txt (t (text "v")), .index, .sep (t (text ", "))],
   .txt (t (text ");\n}\n\n"))]

theorem protoBody_eq (pre post : Text) (f : Fn) : (protoBody pre post).flatMap (renderMid f) = prototype pre post f := by
  simp only [protoBody, List.flatMap_cons, List.flatMap_nil, renderMid, renderArgs_types, prototype, List.append_assoc,
    List.append_nil]

theorem tagBody_eq (f : Fn) : tagBody.flatMap (renderMid f) = tag f := by
  simp only [tagBody, List.flatMap_cons, List.flatMap_nil, renderMid, tag, List.append_assoc, List.append_nil]

theorem declBody_eq (lib : Text) (f : Fn) : (declBody lib).flatMap (renderMid f) = declaration lib f := by
  simp only [declBody, List.flatMap_cons, List.flatMap_nil, renderMid, renderArgs_params, declaration, List.append_assoc,
    List.append_nil]

theorem defBody_eq (lib pre post : Text) (f : Fn) : (defBody lib pre post).flatMap (renderMid f) = definition lib pre post f := by
  simp only [defBody, List.flatMap_cons, List.flatMap_nil, renderMid, renderArgs_params, renderArgs_forwarded, definition,
    List.append_assoc, List.append_nil]

/-! ### The files -/

/-- C109: whatever the function lists contain, the generated `Blas.h` consists of the prototypes of the functions, in order,
between texts that do not depend on the lists. -/
theorem C109_prototypes : ∃ head mid foot : Text, ∀ d : Data,
    generate blasH d = some (head ++ (d (t (text "functions_blas"))).flatMap (prototype [] (t (text "_"))) ++ mid ++
      (d (t (text "functions_blas_zdot_no_return"))).flatMap (prototype [] (t (text "_"))) ++ foot) := by
  have h : parse blasH = some [.txt (t (text "#pragma once\n\n#include <complex>\n\nextern \"C\" {\n\n")),
      .forFns (t (text "functions_blas")) (protoBody [] (t (text "_"))), .txt (t (text "\n")),
      .forFns (t (text "functions_blas_zdot_no_return")) (protoBody [] (t (text "_"))), .txt (t (text "\n} // extern \"C\""))] := by decide +kernel
  refine ⟨t (text "#pragma once\n\n#include <complex>\n\nextern \"C\" {\n\n"), t (text "\n"), t (text "\n} // extern \"C\""), fun d => ?_⟩
  rw [generate, h]
  simp only [Option.map_some, List.flatMap_cons, List.flatMap_nil, renderTop, protoBody_eq, List.append_nil, List.append_assoc]

/-- C109: the prototypes of the MKL sparse routines. -/
theorem C109_sparse_prototypes : ∃ head foot : Text, ∀ d : Data,
    generate spH d = some (head ++ (d (t (text "functions_spblas"))).flatMap (prototype (t (text "mkl_")) []) ++ foot) := by
  have h : parse spH = some [.txt (t (text "#pragma once\n\nextern \"C\" {\n\n")),
      .forFns (t (text "functions_spblas")) (protoBody (t (text "mkl_")) []), .txt (t (text "\n} // extern \"C\""))] := by decide +kernel
  refine ⟨t (text "#pragma once\n\nextern \"C\" {\n\n"), t (text "\n} // extern \"C\""), fun d => ?_⟩
  rw [generate, h]
  simp only [Option.map_some, List.flatMap_cons, List.flatMap_nil, renderTop, protoBody_eq, List.append_nil, List.append_assoc]

/-- C109: the tag types. -/
theorem C109_tags : ∃ head foot : Text, ∀ d : Data,
    generate typesH d = some (head ++ (d (t (text "functions_blas"))).flatMap tag ++ (d (t (text "functions_blas_zdot"))).flatMap tag ++
      (d (t (text "functions_spblas"))).flatMap tag ++ foot) := by
  have h : parse typesH = some [.txt (t (text "#pragma once\n\n#include <string>\n\nnamespace BlasBooster {\n\n")),
      .forFns (t (text "functions_blas")) tagBody, .forFns (t (text "functions_blas_zdot")) tagBody, .forFns (t (text "functions_spblas")) tagBody,
      .txt (t (text "} // namespace BlasBooster"))] := by decide +kernel
  refine ⟨t (text "#pragma once\n\n#include <string>\n\nnamespace BlasBooster {\n\n"), t (text "} // namespace BlasBooster"), fun d => ?_⟩
  rw [generate, h]
  simp only [Option.map_some, List.flatMap_cons, List.flatMap_nil, renderTop, tagBody_eq, List.append_nil, List.append_assoc]

/-- C109: the declarations of the call operators for OpenBLAS. -/
theorem C109_openblas_declarations : ∃ head foot : Text, ∀ d : Data,
    generate openH d = some (head ++ (d (t (text "functions_blas"))).flatMap (declaration (t (text "OpenBLAS"))) ++
      (d (t (text "functions_blas_zdot"))).flatMap (declaration (t (text "OpenBLAS"))) ++ foot) := by
  have h : parse openH = some [.txt (t (text "#pragma once\n\n#include \"BlasInterface.h\"\n#include \"FunctionTypes.h\"\n\nnamespace BlasBooster {\n\nstruct OpenBLAS {};\n\nvoid OpenBLAS_set_num_threads(int nbThreads);\n\n")),
      .forFns (t (text "functions_blas")) (declBody (t (text "OpenBLAS"))), .forFns (t (text "functions_blas_zdot")) (declBody (t (text "OpenBLAS"))),
      .txt (t (text "} // namespace BlasBooster"))] := by decide +kernel
  refine ⟨t (text "#pragma once\n\n#include \"BlasInterface.h\"\n#include \"FunctionTypes.h\"\n\nnamespace BlasBooster {\n\nstruct OpenBLAS {};\n\nvoid OpenBLAS_set_num_threads(int nbThreads);\n\n"), t (text "} // namespace BlasBooster"), fun d => ?_⟩
  rw [generate, h]
  simp only [Option.map_some, List.flatMap_cons, List.flatMap_nil, renderTop, declBody_eq, List.append_nil, List.append_assoc]

/-- C109: the declarations of the call operators for Intel MKL. -/
theorem C109_mkl_declarations : ∃ head foot : Text, ∀ d : Data,
    generate mklH d = some (head ++ (d (t (text "functions_blas"))).flatMap (declaration (t (text "IntelMKL"))) ++
      (d (t (text "functions_blas_zdot"))).flatMap (declaration (t (text "IntelMKL"))) ++
      (d (t (text "functions_spblas"))).flatMap (declaration (t (text "IntelMKL"))) ++ foot) := by
  have h : parse mklH = some [.txt (t (text "#pragma once\n\n#include \"BlasInterface.h\"\n#include \"FunctionTypes.h\"\n\nnamespace BlasBooster {\n\nstruct IntelMKL {};\n\nvoid IntelMKL_set_num_threads(int nbThreads);\n\n")),
      .forFns (t (text "functions_blas")) (declBody (t (text "IntelMKL"))), .forFns (t (text "functions_blas_zdot")) (declBody (t (text "IntelMKL"))),
      .forFns (t (text "functions_spblas")) (declBody (t (text "IntelMKL"))), .txt (t (text "} // namespace BlasBooster"))] := by decide +kernel
  refine ⟨t (text "#pragma once\n\n#include \"BlasInterface.h\"\n#include \"FunctionTypes.h\"\n\nnamespace BlasBooster {\n\nstruct IntelMKL {};\n\nvoid IntelMKL_set_num_threads(int nbThreads);\n\n"), t (text "} // namespace BlasBooster"), fun d => ?_⟩
  rw [generate, h]
  simp only [Option.map_some, List.flatMap_cons, List.flatMap_nil, renderTop, declBody_eq, List.append_nil, List.append_assoc]

/-- Text of the OpenBLAS template before and after the loop. -/
def openHead : Text := t (text "#include \"BlasBooster/BlasInterface/Blas.h\"\n#include \"BlasBooster/BlasInterface/BlasInterface_OpenBLAS.h\"\n\nextern \"C\" void openblas_set_num_threads(int nbThreads);\n\nnamespace BlasBooster {\n\nvoid OpenBLAS_set_num_threads(int nbThreads)\n{\n    ::openblas_set_num_threads(nbThreads);\n}\n\n")

/-- C109, part that holds: the definitions of the call operators for OpenBLAS; every one calls the routine of its name with
all parameters in order.  (The list of the complex dot products is not used.) -/
theorem C109_openblas_definitions_partial : ∃ foot : Text, ∀ d : Data,
    generate openCpp d = some (openHead ++ (d (t (text "functions_blas"))).flatMap (definition (t (text "OpenBLAS")) [] (t (text "_"))) ++ foot) := by
  have h : ∃ foot, parse openCpp = some [.txt openHead, .forFns (t (text "functions_blas")) (defBody (t (text "OpenBLAS")) [] (t (text "_"))),
      .txt foot] := by
    refine ⟨((chomp openCpp).reverse.take 1150).reverse, ?_⟩
    decide +kernel
  obtain ⟨foot, h⟩ := h
  refine ⟨foot, fun d => ?_⟩
  rw [generate, h]
  simp only [Option.map_some, List.flatMap_cons, List.flatMap_nil, renderTop, defBody_eq, List.append_nil, List.append_assoc]

/-- Text of the MKL template before the loops. -/
def mklHead : Text := t (text "#include \"BlasBooster/BlasInterface/Blas.h\"\n#include \"BlasBooster/BlasInterface/IntelMKL_SpBlas.h\"\n#include \"BlasBooster/BlasInterface/BlasInterface_IntelMKL.h\"\n\n// The upper case name must be used, since the lower case one is\n// only a macro defined in mkl_service.h and results in a seg-fault.\nextern \"C\" void MKL_Set_Num_Threads(int nbThreads);\n\nnamespace BlasBooster {\n\nvoid IntelMKL_set_num_threads(int nbThreads)\n{\n\t::MKL_Set_Num_Threads(nbThreads);\n}\n\n")

/-- C109, part that holds: the definitions of the call operators for Intel MKL. -/
theorem C109_mkl_definitions_partial : ∃ foot : Text, ∀ d : Data,
    generate mklCpp d = some (mklHead ++ (d (t (text "functions_blas"))).flatMap (definition (t (text "IntelMKL")) [] (t (text "_"))) ++
      (d (t (text "functions_spblas"))).flatMap (definition (t (text "IntelMKL")) (t (text "mkl_")) []) ++ foot) := by
  have h : ∃ foot, parse mklCpp = some [.txt mklHead, .forFns (t (text "functions_blas")) (defBody (t (text "IntelMKL")) [] (t (text "_"))),
      .forFns (t (text "functions_spblas")) (defBody (t (text "IntelMKL")) (t (text "mkl_")) []), .txt foot] := by
    refine ⟨((chomp mklCpp).reverse.take 1094).reverse, ?_⟩
    decide +kernel
  obtain ⟨foot, h⟩ := h
  refine ⟨foot, fun d => ?_⟩
  rw [generate, h]
  simp only [Option.map_some, List.flatMap_cons, List.flatMap_nil, renderTop, defBody_eq, List.append_nil, List.append_assoc]

/-! ### Reading the lists back -/

theorem paramName_eq (i : Nat) : paramName i = 'v' :: Nat.toDigits 10 i := by
  have : t (text "v") = ['v'] := by decide +kernel
  rw [paramName, this]; rfl

/-- C109: different parameters of a wrapper have different names. -/
theorem C109_parameter_names_distinct (i j : Nat) (h : paramName i = paramName j) : i = j := by
  rw [paramName_eq, paramName_eq] at h
  have h' := (List.cons.inj h).2
  have := congrArg (fun l => Nat.ofDigitChars 10 l 0) h'
  simpa only [Nat.ofDigitChars_toDigits (b := 10) (by decide) (by decide)] using this

theorem paramName_no_comma (i : Nat) : ',' ∉ paramName i := by
  rw [paramName_eq]
  intro h
  rcases List.mem_cons.mp h with h | h
  · exact absurd h (by decide)
  · have := Nat.isDigit_of_mem_toDigits (b := 10) (by decide) (by decide) h
    exact absurd this (by decide)

theorem items_single {a : Text} (h : ',' ∉ a) : items a = [a] := by
  induction a with
  | nil => rfl
  | cons c a ih =>
    have hc : c ≠ ',' := fun e => h (by simp [e])
    have ih' := ih (fun e => h (by simp [e]))
    rw [items]
    · rw [ih']
    · intro r e; exact absurd e hc

theorem items_cons {a r : Text} (h : ',' ∉ a) : items (a ++ ',' :: ' ' :: r) = a :: items r := by
  induction a with
  | nil => rfl
  | cons c a ih =>
    have hc : c ≠ ',' := fun e => h (by simp [e])
    have ih' := ih (fun e => h (by simp [e]))
    rw [List.cons_append, items]
    · rw [ih']
    · intro r e; exact absurd e hc

theorem items_commaList {l : List Text} (h : ∀ a ∈ l, ',' ∉ a) (hl : l ≠ []) : items (commaList l) = l := by
  have e : t (text ", ") = [',', ' '] := by decide +kernel
  induction l with
  | nil => exact absurd rfl hl
  | cons a l ih =>
    cases l with
    | nil => rw [commaList]; simp only [List.intercalate, List.intersperse, List.flatten_cons, List.flatten_nil, List.append_nil]
             exact items_single (h a (by simp))
    | cons b l =>
      have := ih (fun a ha => h a (by simp [ha])) (by simp)
      rw [commaList, List.intercalate_cons_cons, e]
      rw [commaList, e] at this
      rw [List.append_assoc]
      show items (a ++ ',' :: ' ' :: [',', ' '].intercalate (b :: l)) = _
      rw [items_cons (h a (by simp)), this]

/-- C109: when no argument type contains a comma, the parameter list of the wrapper reads as one parameter for every argument
of the routine, and the call passes exactly these parameters in the same order; the prototype has the same types. -/
theorem C109_wrapper_passes_parameters_in_order (f : Fn) (hne : f.args ≠ []) (h : ∀ a ∈ f.args, ',' ∉ a) :
    (items (params f)).length = f.args.length ∧ (items (forwarded f)).length = f.args.length ∧
    (items (types f)).length = f.args.length ∧
    ∀ i (hi : i < f.args.length), ∃ name, (items (params f))[i]? = some (f.args[i] ++ ['*', ' '] ++ name) ∧
      (items (forwarded f))[i]? = some name ∧ (items (types f))[i]? = some (f.args[i] ++ ['*']) ∧
      ∀ j, j ≠ i → (items (forwarded f))[j]? ≠ some name := by
  have e1 : t (text "* ") = ['*', ' '] := by decide +kernel
  have e2 : t (text "*") = ['*'] := by decide +kernel
  have hp : items (params f) = f.args.mapIdx fun i a => a ++ ['*', ' '] ++ paramName i := by
    rw [params, e1]
    apply items_commaList
    · intro a ha
      obtain ⟨i, hi, rfl⟩ := List.mem_mapIdx.mp ha
      have := h f.args[i] (List.getElem_mem _)
      have := paramName_no_comma i
      simp_all
    · simpa using hne
  have hf : items (forwarded f) = (List.range f.args.length).map paramName := by
    rw [forwarded]
    apply items_commaList
    · intro a ha
      obtain ⟨i, -, rfl⟩ := List.mem_map.mp ha
      exact paramName_no_comma i
    · simpa using hne
  have ht : items (types f) = f.args.map fun a => a ++ ['*'] := by
    rw [types, e2]
    apply items_commaList
    · intro a ha
      obtain ⟨b, hb, rfl⟩ := List.mem_map.mp ha
      have := h b hb
      simp_all
    · simpa using hne
  refine ⟨by simp [hp], by simp [hf], by simp [ht], fun i hi => ⟨paramName i, ?_, ?_, ?_, ?_⟩⟩
  · rw [hp]; simp [hi]
  · rw [hf]; simp [hi]
  · rw [ht]; simp [hi]
  · intro j hj hh
    rw [hf] at hh
    simp only [List.getElem?_map, Option.map_eq_some_iff] at hh
    obtain ⟨k, hk, hk2⟩ := hh
    have := C109_parameter_names_distinct _ _ hk2
    subst this
    have h3 := List.getElem?_eq_some_iff.mp hk
    obtain ⟨h4, h5⟩ := h3
    simp at h5
    exact hj h5

/-! ### What is lost -/

/-- C109 is false of the lists the templates do not mention: the sources of the wrappers are the same whatever the list of the
complex dot products contains, although the headers declare a call operator for each of them. -/
theorem C109_complex_dots_are_not_defined (d d' : Data) (h1 : d (t (text "functions_blas")) = d' (t (text "functions_blas")))
    (h2 : d (t (text "functions_spblas")) = d' (t (text "functions_spblas"))) :
    generate openCpp d = generate openCpp d' ∧ generate mklCpp d = generate mklCpp d' := by
  obtain ⟨f1, e1⟩ := C109_openblas_definitions_partial
  obtain ⟨f2, e2⟩ := C109_mkl_definitions_partial
  constructor
  · rw [e1, e1, h1]
  · rw [e2, e2, h1, h2]

/-- A list with the complex dot product `xdotc` only. -/
def xdot : Data := fun k =>
  if k = text "functions_blas_zdot" then [⟨text "float", text "xdotc", [text "const int"]⟩] else []

/-- … for instance `xdotc`: declared in the header, never mentioned in the source. -/
theorem C109_declared_but_not_defined :
    ∃ h s, generate openH xdot = some h ∧ generate openCpp xdot = some s ∧ text "BlasInterface <OpenBLAS, xdotc>" <:+: h ∧
      ¬ text "xdotc" <:+: s := by
  refine ⟨(generate openH xdot).getD [], (generate openCpp xdot).getD [], ?_, ?_, ?_, ?_⟩ <;> decide +kernel

/-- C109 is false of the lists nobody reads: entries of `functions_blas_extra` (saxpyi, …, FunctionList.yml:1904-2208) appear in
none of the generated files. -/
theorem C109_extra_functions_are_never_generated (d d' : Data)
    (h : ∀ k, k ≠ text "functions_blas_extra" → d k = d' k) (T : Text)
    (hT : T ∈ [blasH, mklH, openH, typesH, spH, mklCpp, openCpp]) : generate T d = generate T d' := by
  have k1 : d (t (text "functions_blas")) = d' (t (text "functions_blas")) := h _ (by decide +kernel)
  have k2 : d (t (text "functions_blas_zdot")) = d' (t (text "functions_blas_zdot")) := h _ (by decide +kernel)
  have k3 : d (t (text "functions_blas_zdot_no_return")) = d' (t (text "functions_blas_zdot_no_return")) := h _ (by decide +kernel)
  have k4 : d (t (text "functions_spblas")) = d' (t (text "functions_spblas")) := h _ (by decide +kernel)
  simp only [List.mem_cons, List.not_mem_nil, or_false] at hT
  rcases hT with rfl | rfl | rfl | rfl | rfl | rfl | rfl
  · obtain ⟨_, _, _, e⟩ := C109_prototypes; rw [e, e, k1, k3]
  · obtain ⟨_, _, e⟩ := C109_mkl_declarations; rw [e, e, k1, k2, k4]
  · obtain ⟨_, _, e⟩ := C109_openblas_declarations; rw [e, e, k1, k2]
  · obtain ⟨_, _, e⟩ := C109_tags; rw [e, e, k1, k2, k4]
  · obtain ⟨_, _, e⟩ := C109_sparse_prototypes; rw [e, e, k4]
  · obtain ⟨_, e⟩ := C109_mkl_definitions_partial; rw [e, e, k1, k4]
  · obtain ⟨_, e⟩ := C109_openblas_definitions_partial; rw [e, e, k1]

/-- C109 is false of the MKL interface: whatever the function lists contain, regenerating it does not reproduce the beginning
of the committed file; the call `MKL_Set_Dynamic(0)` that makes the number of threads binding is lost. -/
theorem C109_regenerating_mkl_loses_set_dynamic (d : Data) (out : Text) (h : generate mklCpp d = some out) :
    mklHead <+: out ∧ ¬ text "MKL_Set_Dynamic" <:+: mklHead ∧
    text "MKL_Set_Dynamic(0)" <:+: mklCommitted ∧ ¬ mklCommitted <+: out := by
  obtain ⟨foot, e⟩ := C109_mkl_definitions_partial
  rw [e] at h
  cases h
  have hpre : mklHead <+: mklHead ++ (d (t (text "functions_blas"))).flatMap (definition (t (text "IntelMKL")) [] (t (text "_"))) ++
      (d (t (text "functions_spblas"))).flatMap (definition (t (text "IntelMKL")) (t (text "mkl_")) []) ++ foot := by
    rw [List.append_assoc, List.append_assoc]; exact List.prefix_append _ _
  refine ⟨hpre, by decide +kernel, by decide +kernel, fun hc => ?_⟩
  have h1 := List.prefix_iff_eq_take.mp hpre
  have h2 := List.prefix_iff_eq_take.mp hc
  have h3 : mklCommitted.take 400 = mklHead.take 400 := by
    have l1 : 400 ≤ mklHead.length := by decide +kernel
    have l2 : 400 ≤ mklCommitted.length := by decide +kernel
    rw [h1, h2, List.take_take, List.take_take, Nat.min_eq_left l1, Nat.min_eq_left l2]
  exact absurd h3 (by decide +kernel)

/-- A function as in FunctionList.yml:9-14 meets the hypotheses. -/
example : let f : Fn := ⟨text "float", text "sasum", [text "const int", text "const float", text "const int"]⟩
    f.args ≠ [] ∧ (∀ a ∈ f.args, ',' ∉ a) ∧
    definition (t (text "OpenBLAS")) [] (t (text "_")) f = text "float BlasInterface <OpenBLAS, sasum>::operator() (
    const int* v0, const float* v1, const int* v2) const
{
    return ::sasum_(v0, v1, v2);
}

" := by
  refine ⟨by decide, by decide, by decide +kernel⟩

/-- Each of the four white-space characters is stripped at the end of a line and separates words. -/
example : (∀ c ∈ [' ', '\n', '\t', '\r'], isWs c = true) ∧ (∀ c ∈ ['a', '_', '(', ',', '*'], isWs c = false) := by decide +kernel

end BB.Gen
