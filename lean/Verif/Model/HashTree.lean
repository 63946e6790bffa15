import Verif.Model.Env
/-
`ic_certified_map::HashTree` 0.4.0 and its hash functions, used at
packages/ic_siwe/src/signature_map.rs:1-19, packages/ic_siwe/src/delegation.rs:161,
packages/ic_siwe_provider/src/lib.rs:106-109 and
packages/ic_siwe_provider/src/service/siwe_get_delegation.rs:53-59.
Dependency modelled from its published source.
-/
namespace Siwe

/-- `HashTree` -/
inductive HashTree where
  | empty
  | fork (l r : HashTree)
  | labeled (label : Bytes) (t : HashTree)
  | leaf (content : Bytes)
  | pruned (h : Hash)
  deriving DecidableEq

/-- `domain_sep(s)`: one length byte and the ASCII string, fed to the hasher first. -/
def domainSep (s : String) : Bytes := asU8 (ascii s).length :: ascii s

/-- The string hashed by `fork_hash`. -/
def forkPre (l r : Hash) : Bytes := domainSep "ic-hashtree-fork" ++ l.bytes ++ r.bytes
/-- The string hashed by `leaf_hash`. -/
def leafPre (d : Bytes) : Bytes := domainSep "ic-hashtree-leaf" ++ d
/-- The string hashed by `labeled_hash`. -/
def labeledPre (label : Bytes) (h : Hash) : Bytes := domainSep "ic-hashtree-labeled" ++ label ++ h.bytes
/-- The string hashed for `Empty`. -/
def emptyPre : Bytes := domainSep "ic-hashtree-empty"

/-- `fork_hash` -/
def forkHash (E : Env) (l r : Hash) : Hash := E.sha256 (forkPre l r)
/-- `leaf_hash` -/
def leafHash (E : Env) (d : Bytes) : Hash := E.sha256 (leafPre d)
/-- `labeled_hash` -/
def labeledHash (E : Env) (label : Bytes) (h : Hash) : Hash := E.sha256 (labeledPre label h)
/-- `Empty.reconstruct()` -/
def emptyHash (E : Env) : Hash := E.sha256 emptyPre

/-- `HashTree::reconstruct` -/
def HashTree.reconstruct (E : Env) : HashTree → Hash
  | .empty => emptyHash E
  | .fork l r => forkHash E (l.reconstruct E) (r.reconstruct E)
  | .labeled label t => labeledHash E label (t.reconstruct E)
  | .leaf c => leafHash E c
  | .pruned h => h

/-- `rbtree::three_way_fork` -/
def threeWayFork : HashTree → HashTree → HashTree → HashTree
  | .empty, m, .empty => m
  | l, m, .empty => .fork l m
  | .empty, m, r => .fork m r
  | l, m, r => .fork l (.fork m r)

end Siwe
