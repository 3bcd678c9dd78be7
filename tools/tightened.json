{
"_comment": "mutants after which theorems were tightened",
"qt_3": [
"C77_init_uninit_race (new)"
]
}