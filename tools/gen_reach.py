"""Writes Proofs/LR/ReachCert.lean: which tokens can be ahead in which states, as certificate for `Chosen.lean`."""
import io,contextlib
with contextlib.redirect_stdout(io.StringIO()):
    from pref import *
from gen_cert_util import trie,wrap
def m(s): return str(sum(1<<t for t in s))
o='''import Verif.Proofs.LR.Cert

/-! Generated by /verif/tools/gen_reach.py.  Nothing here is trusted, all uses are checked in `Chosen.lean`. -/

namespace Asn1go.LR

open Tri

/-- Tokens (bits 1 to 128) that can be ahead in a state. -/
def reachT : Tri Nat :=
'''
o+=wrap(trie([reach[s] for s in range(432)],m))
o+='''

/-- Tokens that can be ahead when a tree of a class was pushed on state `b` giving state `x`. -/
def mayT : List ((Nat × Nat × Nat) × Nat) := ['''
o+=',\n  '.join('((%d, %d, %d), %s)'%(k+(m(v),)) for k,v in sorted(may.items()) if v)
o+=''']

end Asn1go.LR
'''
open('/verif/lean/Verif/Proofs/LR/ReachCert.lean','w').write(o)
