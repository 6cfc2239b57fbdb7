import Verif.Src.Text.V2Utils

/-! v2/utils.go: the syntax of its functions is that of its text.  Written by tools/src_embed.py. -/

namespace Crunch.Src.V2Utils

theorem link_atob : compile text_atob = some [fun_atob] := by decide +kernel

end Crunch.Src.V2Utils
