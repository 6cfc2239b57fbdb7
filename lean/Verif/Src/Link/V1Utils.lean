import Verif.Src.Link.V1Utils1

/-! v1/utils.go: the functions of the file.  Written by tools/src_embed.py. -/

namespace Crunch.Src.V1Utils

set_option maxRecDepth 4096 in
theorem link : compileAll text = some funs := by
  exact compileAll_cons link_atob <| rfl

end Crunch.Src.V1Utils
