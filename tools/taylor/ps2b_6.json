[{"fan": 0, "root": [185800, 1, 3014200, 2000000, 1, 2], "tree": "y(x(y(y(x(y(x(y(a)(a))(a))(a))(y(a)(a)))(x(x(y(a)(a))(a))(a)))(x(y(x(a)(a))(a))(y(a)(a))))(y(y(x(a)(a))(y(x(a)(a))(x(a)(a))))(y(y(x(a)(a))(x(a)(a)))(y(x(a)(a))(x(a)(a))))))(x(y(y(x(a)(a))(x(a)(a)))(y(x(y(a)(a))(a))(y(x(x(a)(a))(a))(x(y(x(a)(a))(x(y(a)(x(a)(a)))(a)))(y(x(a)(a))(y(x(a)(a))(y(x(a)(a))(x(a)(a)))))))))(y(y(x(a)(a))(x(a)(a)))(y(x(a)(a))(y(x(a)(a))(x(y(x(a)(a))(y(x(a)(a))(x(a)(a))))(y(y(a)(x(a)(a)))(y(x(a)(a))(x(a)(a)))))))))", "n": 74, "s": 0}, {"fan": 1, "root": [200000, 1, 3400000, 2000000, 1, 2], "tree": "y(x(y(y(y(a)(a))(a))(y(y(a)(a))(a)))(y(y(y(a)(a))(a))(y(a)(a))))(x(y(y(y(a)(x(a)(a)))(x(a)(a)))(y(y(x(a)(a))(x(a)(a)))(y(x(y(a)(y(x(a)(a))(x(a)(a))))(y(a)(y(a)(x(a)(a)))))(y(x(y(x(a)(a))(x(a)(a)))(y(x(a)(a))(x(a)(a))))(y(x(y(x(a)(a))(y(y(x(a)(a))(x(a)(a)))(x(a)(a))))(y(x(a)(a))(x(a)(a))))(x(y(y(x(a)(a))(x(a)(a)))(x(a)(a)))(x(a)(a))))))))(y(y(a)(a))(y(y(a)(x(a)(a)))(y(y(x(a)(a))(x(y(a)(x(a)(a)))(a)))(y(y(x(y(x(a)(a))(x(a)(a)))(x(a)(a)))(x(y(x(a)(a))(x(a)(a)))(y(x(a)(a))(x(a)(a)))))(y(x(y(x(a)(a))(x(a)(a)))(y(x(a)(a))(x(a)(a))))(x(y(y(x(a)(a))(x(a)(a)))(y(x(a)(a))(x(a)(a))))(y(x(a)(a))(x(a)(a))))))))))", "n": 102, "s": 0}, {"fan": 2, "root": [200000, 1, 3400000, 2000000, 1, 2], "tree": "y(x(x(y(x(a)(a))(x(x(a)(d))(d)))(y(x(a)(a))(d)))(x(x(y(a)(d))(y(y(y(a)(d))(d))(d)))(y(y(y(x(a)(a))(d))(d))(d))))(x(x(x(x(x(a)(d))(d))(d))(d))(x(d)(d)))", "n": 10, "s": 16}, {"fan": 3, "root": [216300, 1, 3816300, 2000000, 1, 2], "tree": "y(x(y(y(y(a)(a))(a))(y(a)(a)))(y(y(y(a)(a))(a))(a)))(x(y(y(a)(a))(y(y(a)(x(a)(a)))(y(y(x(a)(a))(x(a)(a)))(y(y(x(a)(a))(x(y(x(a)(a))(x(a)(a)))(a)))(y(x(y(x(a)(a))(x(a)(a)))(x(a)(a)))(x(y(x(a)(a))(x(a)(a)))(x(a)(a))))))))(y(y(a)(a))(y(y(a)(y(a)(x(a)(a))))(y(y(y(x(a)(a))(x(a)(a)))(y(x(a)(a))(x(a)(a))))(y(x(a)(a))(y(x(y(a)(a))(a))(x(x(a)(a))(y(a)(x(a)(a))))))))))", "n": 61, "s": 0}, {"fan": 4, "root": [216300, 1, 3816300, 2000000, 1, 2], "tree": "y(x(y(y(x(y(x(a)(a))(d))(y(x(a)(a))(d)))(x(d)(d)))(y(y(d)(d))(x(d)(d))))(y(y(x(y(x(a)(a))(d))(y(y(x(a)(a))(d))(d)))(d))(y(d)(d))))(x(y(x(d)(d))(x(d)(d)))(y(y(y(d)(d))(y(x(d)(d))(x(d)(d))))(y(x(d)(d))(x(d)(d)))))", "n": 8, "s": 28}, {"fan": 5, "root": [283700, 1, 4316300, 2000000, 1, 2], "tree": "y(x(y(y(y(y(a)(a))(a))(a))(a))(y(y(y(a)(a))(a))(a)))(x(y(y(a)(y(a)(a)))(y(y(y(a)(a))(y(x(a)(a))(x(a)(a))))(y(y(x(a)(a))(x(a)(a)))(x(y(a)(y(a)(x(a)(a))))(y(a)(x(a)(a)))))))(y(x(a)(a))(y(y(a)(x(a)(a)))(y(x(a)(a))(x(a)(a))))))", "n": 38, "s": 0}, {"fan": 6, "root": [283700, 1, 4316300, 2000000, 1, 2], "tree": "y(x(y(y(x(y(x(a)(a))(d))(y(x(a)(a))(d)))(d))(x(d)(d)))(y(y(x(y(x(a)(a))(d))(x(a)(a)))(d))(d)))(x(y(y(x(d)(d))(x(d)(d)))(y(x(d)(d))(x(y(x(d)(d))(x(d)(d)))(d))))(y(x(d)(d))(x(d)(d))))", "n": 8, "s": 23}, {"fan": 7, "root": [400000, 1, 5000000, 2000000, 1, 2], "tree": "y(x(y(y(a)(a))(y(a)(a)))(y(y(a)(a))(y(a)(a))))(x(y(y(x(a)(a))(x(a)(a)))(y(y(y(x(a)(a))(x(a)(a)))(x(a)(a)))(x(y(a)(x(a)(a)))(y(a)(y(x(a)(a))(x(a)(a)))))))(y(x(y(a)(a))(a))(y(y(x(a)(a))(x(a)(a)))(x(x(a)(a))(a)))))", "n": 36, "s": 0}, {"fan": 8, "root": [400000, 1, 5000000, 2000000, 1, 2], "tree": "y(x(y(y(y(x(x(a)(a))(y(a)(d)))(d))(d))(x(d)(d)))(y(y(y(x(y(a)(d))(y(x(a)(a))(d)))(d))(d))(d)))(x(y(y(x(d)(d))(y(x(d)(d))(y(x(d)(d))(x(d)(d)))))(y(y(x(d)(d))(x(d)(d)))(x(d)(d))))(y(y(x(d)(d))(y(x(d)(d))(x(d)(d))))(y(y(y(x(d)(d))(x(d)(d)))(y(x(d)(d))(y(x(d)(d))(x(d)(d)))))(y(y(y(x(d)(d))(x(d)(d)))(y(x(d)(d))(x(d)(d))))(y(y(x(d)(d))(x(d)(d)))(x(d)(d)))))))", "n": 6, "s": 54}, {"fan": 9, "root": [462278, 1, 5862278, 2000000, 1, 2], "tree": "y(x(y(x(a)(a))(x(a)(a)))(x(y(a)(x(a)(a)))(x(y(a)(a))(y(y(x(a)(a))(x(a)(a)))(x(a)(y(a)(a)))))))(x(y(x(y(a)(a))(x(a)(a)))(x(y(a)(y(a)(x(a)(a))))(y(a)(a))))(x(y(x(a)(a))(y(a)(y(a)(a))))(y(x(x(a)(a))(a))(y(x(a)(a))(x(a)(a))))))", "n": 38, "s": 0}, {"fan": 10, "root": [462278, 1, 5862278, 2000000, 1, 2], "tree": "y(x(y(x(y(y(x(y(a)(d))(y(a)(d)))(d))(d))(x(x(y(y(a)(d))(d))(y(a)(d)))(y(y(a)(d))(d))))(d))(y(y(y(x(y(x(x(a)(y(a)(d)))(y(a)(d)))(d))(x(y(y(a)(d))(d))(y(x(a)(a))(d))))(d))(d))(d)))(x(y(x(d)(d))(y(x(d)(d))(y(x(d)(d))(x(d)(d)))))(y(x(d)(d))(y(x(d)(d))(x(d)(d)))))", "n": 11, "s": 33}]