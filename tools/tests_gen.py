#!/usr/bin/env python3
"""Write lean/Verif/Props/Tests{V1,V2,V3}{Buffer,Mini}.lean: one theorem for each test function in lean/Verif/Src/Text/*Test.lean."""
import os
import re

D = os.path.join(os.path.dirname(os.path.abspath(__file__)), '..', 'lean', 'Verif', '')
FILES=[("V3BufferTest","v3_buffer","Buffer","V3Buffer","runBuf","SourceV3","v3/buffer_test.go"),
("V3MiniTest","v3_mini","MiniBuffer","V3Mini","runMini","SourceV3","v3/minibuf_test.go"),
("V2BufferTest","v2_buffer","Buffer","V2Buffer","runProg","SourceV2Buffer","v2/buffer_test.go"),
("V2MiniTest","v2_mini","MiniBuffer","V2Mini","runMini","SourceV2","v2/minibuf_test.go"),
("V1BufferTest","v1_buffer","Buffer","V1Buffer","runProg","SourceV1Buffer","v1/buffer_test.go"),
("V1MiniTest","v1_mini","MiniBuffer","V1Mini","runMini","SourceV1","v1/minibuf_test.go")]
for mod,nm,ty,pk,run,src,go in FILES:
    names=re.findall(r'^def (Test\w+) :',open(D+f'Src/Text/{mod}.lean').read(),re.M)
    o=f'''import Verif.Props.TestsNew
import Verif.Src.Tactic
import Verif.Src.Text.{mod}

/-! # C134: the tests of /repo/{go} pass, from the texts, one by one -/

namespace Crunch.Src.Tests.{mod}

open Crunch.Gen

/-- The test passes, whatever `append` allocates ahead. -/
private abbrev Ok (l : List Str) : Prop := Passes (str% "{ty}") {pk}.P ({run} {pk}.P) l

'''
    for n in names:
        if n in("TestNewBuffer","TestNewMiniBuffer"):
            b={"V3BufferTest":"v3","V3MiniTest":"v3m","V2BufferTest":"v2","V2MiniTest":"v2m","V1BufferTest":"v1","V1MiniTest":"v1m"}[mod]
            k="newMini" if "Mini" in n else "new"
            o+=f"private theorem {n}_passes : Ok {mod}.{n} := ⟨{k}Test, parse_{k}, {k}Test_passes builds_{b}⟩\n"
        else:
            o+=f"private theorem {n}_passes : Ok {mod}.{n} := of_check (by kexact (fun _ : Nat → Nat → Nat => Eq.refl true))\n"
    chain = "".join(f"  all_cons {n}_passes <|\n" for n in names)
    utils = {"V3": None, "V2": "V2Utils", "V1": "V1Utils"}[pk[:2]]
    text = f"{pk}.text" if utils is None else f"({utils}.text ++ {pk}.text)"
    link = f"{pk}.link" if utils is None else f"compileAll_append {utils}.link {pk}.link"
    o += f'''
private theorem all : ∀ l ∈ {mod}.text, Ok l :=
{chain}  all_nil

/-- C134 (/repo/{go}): every test of the file passes, when the methods are run from their texts. -/
theorem C134_{nm} :
    ∃ funs, compileAll {text} = some funs ∧
    ∀ l ∈ {mod}.text, Passes (str% "{ty}") ⟨funs, {pk}.errs⟩ ({run} ⟨funs, {pk}.errs⟩) l :=
  ⟨_, {link}, all⟩

/-- There are {len(names)} of them. -/
example : {mod}.text.length = {len(names)} := by rfl

end Crunch.Src.Tests.{mod}
'''
    open(D+f'Props/Tests{mod[:-4]}.lean','w').write(o)
