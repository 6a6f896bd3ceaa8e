import Verif.Lemmas.CInsts
import Verif.Props.Builtin
import Verif.Props.CForm

/-!
Property C96: what the generated C text means.  First part: what a compiler gets of the
text is the code of `Verif/Model/CProg.lean`, for all prefixes, functions, objects and
macros.
-/

namespace Gdo.Cc
open Gdo Tpl Opt Gen Tmpl Sub Rename Builtin CForm

/-- The code of the two templates for the implementation. -/
def program (names : ParamNames) (D : Str → Bool) : List Top := commonProg D ++ cProg (names = .skip) D

/-- The tokens that the compiler gets of the text are those of the code, with the names
    of the functions and objects filled in and with the prefix that was asked for. -/
theorem C96_text (u l : Str) (names : ParamNames) (protos objs : List Proto) (D : Str → Bool) (hu : ∀ c ∈ u, isWord c = true)
    (hl : ∀ c ∈ l, isWord c = true) (hln : l ≠ []) (hd : ∀ p ∈ protos ++ objs, Named p) :
    ∃ ts out, progToks ((program names fun w => D (newName u l w)).map (Top.inst (insts protos objs))) = some (ts.map .tok) ∧
      preprocess D (unlines ([TName.commonBody, TName.cBody].flatMap fun t => instantiate u l names protos objs (lines t))) = some out ∧
      closeAll u l ts = some out := by
  have := ((commonProg_seg names).append (cProg_seg names)).sound hu hl hln (instsOk hd) D
  rw [List.flatMap_append] at this
  simpa [program, instantiate, Builtin.texts] using this

/-- The file with the implementation that is written with `-separate` is this code. -/
theorem C96_written (env : Env) (s : Settings) (hb : ∀ t, compiledList t = some (env.builtin t)) (hp : PrefixOk s.pfx)
    (ht : s.templatesPath = []) (hline : s.lineDirective = false) (hf : s.format = .c) (hsep : isSeparate s = true)
    (hd : ∀ p ∈ env.symbols.protos ++ env.symbols.objs, PlainData p ∧ Named p)
    (hne : env.symbols.protos ++ env.symbols.objs ≠ []) (D : Str → Bool) :
    ∃ N, ∀ n, N ≤ n → ∃ bss j ts out, bodySubst { env with n } s = .ok (bss, j) ∧
      progToks ((program s.names fun w => D (newName (toUpper s.pfx) (toLower s.pfx) w)).map
        (Top.inst (insts env.symbols.protos env.symbols.objs))) = some (ts.map .tok) ∧
      preprocess D (bytes bss.flatten.flatten) = some out ∧ closeAll (toUpper s.pfx) (toLower s.pfx) ts = some out := by
  obtain ⟨N, h⟩ := C94_processed env s hb hp ht (fun p hp => (hd p hp).1) hne
  refine ⟨N, fun n hn => ?_⟩
  obtain ⟨css, k, bss, j, _, e2, _, _, e3⟩ := h n hn
  obtain ⟨ts, out, a1, a2, a3⟩ := C96_text (toUpper s.pfx) (toLower s.pfx) s.names env.symbols.protos env.symbols.objs D
    (Pfx.C30_upper _) (Pfx.C30_lower _) (prefix_ne hp) (fun p hp => (hd p hp).2)
  refine ⟨bss, j, ts, out, e2, a1, ?_, a3⟩
  rw [(e3 hline).2]
  have : (listNames s).2 = [.commonBody, .cBody] := by
    unfold listNames
    rw [hf, hsep]
    rfl
  rw [this]
  exact a2

/-- Symbols that come from a text file meet the condition on the data, if all brackets are
    closed. -/
theorem C96_named (sy : Symbols) (h : Props.FromText sy) (hc : Closed sy) : ∀ p ∈ sy.protos ++ sy.objs, Named p := by
  intro p hp
  obtain ⟨⟨h1, _⟩, h2, _, _⟩ := (Props.C84_characters_partial sy h).1 p hp
  refine ⟨C95_text sy h hc p hp, ⟨h1, text_word h p hp⟩, fun c hx => ?_⟩
  have hm : c ∈ p.type := List.mem_of_head? hx
  constructor
  · rintro rfl
    exact Props.harmless_not h2 (by decide) (by decide) hm
  · rintro rfl
    exact Props.harmless_not h2 (by decide) (by decide) hm

/-- A function that meets the condition. -/
example : Named { kind := .function, type := str% "int", symbol := str% "f1", args := str% "int a, char *b", paramNames := str% "a, b" } :=
  ⟨⟨⟨by decide, inline_of rfl⟩, ⟨by decide, inline_of rfl⟩, ⟨by decide, inline_of rfl⟩, ⟨by decide, inline_of rfl⟩⟩, ⟨by decide, by decide⟩, fun c hc => by cases hc; decide⟩

/-- What a compiler gets of a text; the renamed tokens of some code. -/
example : preprocess (fun w => w = str% "A") (str% "#ifdef A\nint f(void) { /* ; */ return 1 +\n  x; }\n#else\nint g;\n#endif\n") =
      some [.word (str% "int"), .word (str% "f"), .punct (str% "("), .word (str% "void"), .punct (str% ")"), .punct (str% "{"),
        .word (str% "return"), .word (str% "1"), .punct (str% "+"), .word (str% "x"), .punct (str% ";"), .punct (str% "}")] ∧
    closeAll (str% "MY") (str% "my") [.word (.fixed (str% "gdo_lib")), .str (.fixed (str% "gdo_lib: GDO_X")), .word (.glued (str% "GDO_LOAD_") (str% "f"))] =
      some [.word (str% "my_lib"), .str (str% "my_lib: MY_X"), .word (str% "MY_LOAD_f")] := by
  decide +kernel

/-- The code depends on the macros; for Linux without any macros there are this many functions and
    declarations. -/
example : (program .skip fun _ => false).length = 28 ∧ (program .create fun w => w = str% "_WIN32" || w = str% "GDO_WINAPI").length = 31 := by
  decide +kernel

end Gdo.Cc
