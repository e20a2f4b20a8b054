import Verif.Model.Inspector

/-!
# A unit test of pkg/pgmeta, of the model

See Tests/Pg.lean. The other two tests are of the database driver.
-/

namespace Gevulot.Tests

open InspectorModel

/-- The tables of the test, their indexes and sequences, and some of what every database contains. -/
def testCatalog : Catalog :=
  { namespaces := [⟨11, "pg_catalog".toList⟩, ⟨99, "pg_toast".toList⟩, ⟨2200, "public".toList⟩, ⟨13000, "information_schema".toList⟩]
    classes := [⟨1259, "pg_class".toList, 11, 'r'⟩, ⟨13100, "columns".toList, 13000, 'v'⟩, ⟨16385, "companies".toList, 2200, 'r'⟩,
      ⟨16386, "pg_toast_16385".toList, 99, 't'⟩, ⟨16388, "companies_pkey".toList, 2200, 'i'⟩, ⟨16390, "users".toList, 2200, 'r'⟩,
      ⟨16391, "users_id_seq".toList, 2200, 'S'⟩] }

theorem TestInspectorOIDTableMapping :
    ∃ m, oidTableMapping (.ok { items := (query testCatalog).map .row, err := none }) = .ok m ∧
      (testCatalog.classes.filterMap fun c => m c.oid) = [⟨"public".toList, "companies".toList⟩, ⟨"public".toList, "users".toList⟩] :=
  ⟨_, rfl, by decide +kernel⟩

end Gevulot.Tests
