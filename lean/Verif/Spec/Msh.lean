import Verif.Model.SaveMsh

/-!
# Specification of sampled meshes

Stated on the finished mesh only.
-/

namespace NS

/-- The first `n` rows of `k` numbers of a flat array. -/
def rowsOf (k : ℕ) : ℕ → List ℕ → List (List ℕ)
  | 0, _ => []
  | n + 1, l => l.take k :: rowsOf k n (l.drop k)

/-- Number of nodes of an element: gmsh type 1 is a segment, type 3 a quadrangle. -/
def nodesOfType (ty : ℕ) : ℕ := if ty = 1 then 2 else if ty = 3 then 4 else 0

/-- The elements of a block: each row is the element's tag followed by its node tags. -/
def ElemBlock.rows (b : ElemBlock) : List (List ℕ) := rowsOf (nodesOfType b.etype + 1) b.count b.data

/-- The tags of the elements of a block. -/
def ElemBlock.elemTags (b : ElemBlock) : List ℕ := b.rows.map (fun r => r.headD 0)

/-- A node block and the element block of the same entity: sizes agree with the stored counts, and every
element of the entity refers to nodes of the entity, all different. -/
structure EntityOk {K : Type} (nb : NodeBlock K) (eb : ElemBlock) : Prop where
  tag : eb.tag = nb.tag
  dim : eb.dim = nb.dim
  etype : eb.etype = if eb.dim = 1 then 1 else 3
  dim12 : nb.dim = 1 ∨ nb.dim = 2
  count : nb.count = nb.tags.length
  data : nb.data.length = nb.count * (3 + nb.dim)
  size : eb.data.length = eb.count * (nodesOfType eb.etype + 1)
  refs : ∀ r ∈ eb.rows, ∀ t ∈ r.tail, t ∈ nb.tags
  distinct : ∀ r ∈ eb.rows, r.tail.Nodup

/-- Everything of the consistency of a sampled mesh except the header field `min_node_tag`. -/
structure MeshOk {K : Type} (m : Mesh K) : Prop where
  /-- node tags are exactly 1, ..., max_node_tag, each once -/
  nodeTags : m.nodeBlocks.flatMap NodeBlock.tags = List.range' 1 m.maxNode
  numNodes : m.numNodes = m.maxNode
  numNodeBlocks : m.numNodeBlocks = m.nodeBlocks.length
  /-- element tags are exactly 1, ..., max_element_tag, each once -/
  elemTags : m.elemBlocks.flatMap ElemBlock.elemTags = List.range' 1 m.maxElem
  numElems : m.numElems = m.maxElem
  numElemBlocks : m.numElemBlocks = m.elemBlocks.length
  minElem : m.elemBlocks ≠ [] → m.minElem = 1
  entities : List.Forall₂ EntityOk m.nodeBlocks m.elemBlocks
  /-- the data views together give every element the tag of its entity -/
  views : m.views.flatMap DataView.entries =
    m.elemBlocks.flatMap (fun b => b.elemTags.map (fun t => (t, b.tag)))
  viewCounts : ∀ d ∈ m.views, d.count = d.entries.length

end NS
