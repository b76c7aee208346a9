import Verif.Src.Code.Headers
/-
  Generated by tools/c2lean.py from tests/checkextension.c.
-/
namespace Iff.Src

/-- checkextension.c:25-37 -/
def checkextension_main.code : Fun where
  params := [(.argc, (.int .int)), (.argv, (.ptr (.ptr (.int .char))))]
  ret := (.int .int)
  body :=
    (.seq (.decl .chunk (.ptr (.struct .IFF_Chunk)) (some (.call (.fn .TEST_read) (.cons (.str "extension.TEST") .nil))))
      (.ite (.bin .eq (.var .chunk) .null)
      (.ret (.num .int 1))
      (.seq (.decl .status (.int .int) (some (.call (.fn .TEST_check) (.cons (.var .chunk) .nil))))
        (.seq (.expr (.call (.fn .TEST_free) (.cons (.var .chunk) .nil)))
        (.ret (.var .status))))))

end Iff.Src
