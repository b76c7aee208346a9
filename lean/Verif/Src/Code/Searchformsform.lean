import Verif.Src.Code.Headers
/-
  Generated by tools/c2lean.py from tests/searchforms-form.c.
-/
namespace Iff.Src

/-- searchforms-form.c:28 -/
def searchforms_form_ID_TEST : Expr := (IFF_MAKEID (.num .int 84) (.num .int 69) (.num .int 83) (.num .int 84))

/-- searchforms-form.c:30-52 -/
def searchforms_form_main.code : Fun where
  params := [(.argc, (.int .int)), (.argv, (.ptr (.ptr (.int .char))))]
  ret := (.int .int)
  body :=
    (.seq (.decl .chunk (.ptr (.struct .IFF_Chunk)) (some (.call (.fn .IFF_read) (.cons (.str "hello.TEST") (.cons .null .nil)))))
      (.ite (.bin .eq (.var .chunk) .null)
      (.ret (.num .int 1))
      (.seq (.decl .status (.int .int) (some (.num .int 0)))
        (.seq (.object .formsLength (.int .uint) none)
        (.seq (.expr (.call (.fn .IFF_searchForms) (.cons (.var .chunk) (.cons searchforms_form_ID_TEST (.cons (.addr (.var .formsLength)) .nil)))))
        (.seq (.ite (.bin .ne (.var .formsLength) (.num .int 1))
          (.seq (.expr (.call (.fn .fprintf) (.cons (.stream .stderr) (.cons (.str "We should be able to find 1 TEST form!\n") .nil))))
            (.expr (.assign (.var .status) (.num .int 1))))
          .skip)
        (.seq (.expr (.call (.fn .IFF_free) (.cons (.var .chunk) (.cons .null .nil))))
        (.ret (.var .status)))))))))

end Iff.Src
