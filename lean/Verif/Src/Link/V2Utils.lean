import Verif.Src.Link.V2Utils1

/-! v2/utils.go: the functions of the file.  Written by tools/src_embed.py. -/

namespace Crunch.Src.V2Utils

set_option maxRecDepth 4096 in
theorem link : compileAll text = some funs := by
  exact compileAll_cons link_atob <| rfl

end Crunch.Src.V2Utils
