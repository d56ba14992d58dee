from emit import *
s="""import Verif.Lemmas.TaylorTree

/-! Parameters of the Taylor models (masks generated, checked by evaluation). -/

namespace If97.Tm
set_option maxRecDepth 100000

"""+par('P12',128,448,12,9)+"\nend If97.Tm\n"
open('/verif/lean/Verif/Lemmas/Tm/Par.lean','w').write(s)
