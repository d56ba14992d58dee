[{"root": [185800, 1, 3014200, 2000000, 1, 2], "tree": "y(x(y(y(y(y(a)(a))(a))(x(a)(a)))(y(x(x(y(x(y(a)(a))(a))(y(a)(a)))(a))(a))(a)))(y(y(y(y(a)(a))(a))(a))(y(a)(a))))(x(y(y(a)(y(a)(a)))(y(x(y(a)(a))(a))(y(y(x(a)(a))(x(a)(a)))(y(x(x(a)(a))(a))(x(y(a)(x(a)(a)))(y(a)(a)))))))(y(y(a)(y(a)(a)))(y(y(a)(a))(y(y(x(a)(a))(x(a)(a)))(y(x(a)(y(a)(a)))(x(y(a)(y(x(a)(a))(x(a)(a))))(x(a)(a))))))))", "n": 56, "s": 0}, {"root": [200000, 1, 3400000, 2000000, 1, 2], "tree": "y(x(y(y(y(a)(a))(a))(a))(y(y(y(y(a)(a))(a))(a))(a)))(x(y(y(a)(y(a)(a)))(y(y(a)(y(x(a)(a))(y(x(a)(a))(x(a)(a)))))(y(x(y(a)(x(a)(a)))(y(a)(x(a)(a))))(y(y(x(y(x(a)(a))(x(a)(a)))(x(a)(a)))(x(y(x(a)(a))(x(a)(a)))(y(x(a)(a))(y(x(a)(a))(y(x(a)(a))(x(a)(a)))))))(y(y(x(x(a)(a))(y(y(x(a)(a))(x(a)(a)))(x(a)(a))))(x(x(a)(a))(x(a)(a))))(x(y(x(a)(a))(x(x(a)(a))(y(a)(y(x(a)(a))(x(a)(a))))))(y(x(a)(a))(x(y(a)(x(a)(a)))(a)))))))))(y(y(a)(a))(y(y(a)(y(x(a)(a))(y(x(a)(a))(y(x(a)(a))(x(a)(a))))))(y(y(y(x(a)(a))(x(a)(a)))(x(a)(a)))(y(x(y(x(a)(a))(y(x(a)(a))(x(a)(a))))(y(a)(y(x(a)(a))(x(a)(a)))))(x(x(a)(a))(y(y(x(a)(a))(x(a)(a)))(x(a)(a)))))))))", "n": 106, "s": 0}, {"root": [200000, 1, 3400000, 2000000, 1, 2], "tree": "y(x(x(x(x(a)(y(x(a)(y(a)(d)))(d)))(y(y(x(y(x(a)(y(a)(d)))(d))(y(y(y(a)(d))(d))(d)))(d))(d)))(y(y(x(y(x(y(x(y(a)(d))(a))(d))(y(a)(d)))(d))(x(y(a)(d))(a)))(d))(d)))(y(x(y(x(a)(a))(d))(x(a)(y(a)(d))))(y(x(d)(d))(y(x(d)(d))(x(d)(d))))))(x(x(x(x(x(a)(d))(d))(d))(d))(y(x(d)(d))(x(d)(d))))", "n": 16, "s": 32}, {"root": [216300, 1, 3816300, 2000000, 1, 2], "tree": "y(x(y(y(y(a)(a))(a))(y(a)(a)))(y(y(a)(a))(y(y(a)(x(a)(a)))(y(x(a)(a))(a)))))(x(y(y(a)(a))(y(y(a)(y(a)(y(x(a)(a))(x(a)(a)))))(y(y(y(x(a)(a))(x(a)(a)))(x(a)(a)))(y(x(y(a)(y(x(a)(a))(x(a)(a))))(a))(y(y(x(y(x(a)(a))(x(a)(a)))(y(x(a)(a))(x(a)(a))))(x(y(x(a)(a))(x(a)(a)))(y(y(x(a)(a))(x(a)(a)))(y(x(a)(a))(x(a)(a))))))(y(x(y(x(a)(a))(x(a)(a)))(y(x(a)(a))(x(a)(a))))(x(x(a)(a))(x(a)(a)))))))))(y(y(a)(a))(y(y(a)(y(a)(x(a)(a))))(y(y(x(a)(a))(x(a)(a)))(y(x(a)(a))(x(y(y(a)(x(a)(a)))(x(a)(a)))(x(a)(a))))))))", "n": 84, "s": 0}, {"root": [216300, 1, 3816300, 2000000, 1, 2], "tree": "y(x(y(y(x(x(y(a)(d))(y(a)(d)))(y(x(a)(a))(d)))(x(d)(d)))(y(y(x(d)(d))(x(d)(d)))(x(d)(d))))(y(y(x(x(a)(a))(y(x(a)(a))(d)))(d))(y(d)(d))))(x(y(y(x(d)(d))(x(d)(d)))(x(d)(d)))(y(y(y(d)(x(d)(d)))(y(x(d)(d))(x(d)(d))))(y(x(d)(d))(x(d)(d)))))", "n": 8, "s": 32}, {"root": [283700, 1, 4316300, 2000000, 1, 2], "tree": "y(x(y(y(a)(y(a)(a)))(y(y(y(x(a)(a))(x(a)(a)))(x(y(x(a)(a))(a))(x(y(a)(a))(a))))(y(x(y(a)(a))(y(a)(a)))(a))))(y(y(y(a)(a))(y(a)(a)))(y(x(y(a)(x(a)(a)))(y(a)(a)))(x(a)(a)))))(x(y(y(a)(a))(y(y(x(a)(a))(x(a)(a)))(y(x(a)(a))(y(x(y(a)(x(a)(a)))(a))(x(y(x(a)(a))(x(a)(a)))(y(x(a)(a))(y(x(a)(a))(x(a)(a)))))))))(y(y(a)(x(a)(a)))(y(y(x(a)(a))(y(y(x(a)(a))(x(a)(a)))(x(a)(a))))(y(x(a)(a))(y(x(a)(a))(y(x(a)(a))(x(x(a)(a))(a))))))))", "n": 71, "s": 0}, {"root": [283700, 1, 4316300, 2000000, 1, 2], "tree": "y(x(y(y(x(y(x(a)(a))(d))(y(x(a)(a))(d)))(x(d)(d)))(x(d)(d)))(y(y(y(x(y(x(a)(a))(d))(y(y(x(a)(a))(d))(d)))(d))(d))(y(d)(d))))(x(y(x(d)(d))(x(x(d)(d))(d)))(y(y(x(d)(d))(x(d)(d)))(y(x(d)(d))(x(d)(d)))))", "n": 8, "s": 26}, {"root": [400000, 1, 5000000, 2000000, 1, 2], "tree": "y(x(y(y(y(x(a)(a))(a))(y(a)(a)))(y(y(a)(x(a)(a)))(x(y(a)(a))(y(x(a)(a))(y(a)(a))))))(y(y(x(y(a)(a))(x(a)(a)))(y(x(a)(a))(a)))(y(y(a)(x(a)(a)))(x(y(x(a)(a))(x(a)(a)))(a)))))(x(y(y(y(x(a)(a))(a))(x(y(a)(a))(y(a)(a))))(y(y(x(a)(a))(x(a)(a)))(y(x(a)(y(a)(a)))(y(x(x(a)(a))(x(a)(a)))(y(x(x(a)(a))(x(a)(a)))(x(y(x(a)(a))(y(x(a)(a))(x(a)(a))))(y(x(a)(a))(x(a)(a)))))))))(y(y(x(a)(y(a)(a)))(y(x(a)(a))(x(a)(y(a)(x(a)(a))))))(y(y(x(x(a)(y(a)(a)))(y(x(y(a)(x(a)(a)))(y(a)(a)))(x(x(a)(y(a)(a)))(y(x(a)(a))(a)))))(y(x(x(a)(a))(y(x(a)(a))(a)))(y(x(a)(a))(x(a)(a)))))(y(y(y(y(x(a)(a))(x(a)(a)))(x(a)(a)))(x(y(a)(a))(a)))(y(x(y(x(a)(a))(y(x(a)(a))(x(a)(a))))(y(a)(x(a)(a))))(x(y(x(a)(a))(x(a)(a)))(y(y(x(a)(a))(x(a)(a)))(x(a)(a)))))))))", "n": 121, "s": 0}, {"root": [400000, 1, 5000000, 2000000, 1, 2], "tree": "y(x(y(y(y(y(x(y(y(x(a)(a))(d))(d))(y(x(y(a)(d))(a))(d)))(d))(d))(d))(y(y(d)(d))(x(d)(d))))(y(y(y(y(x(x(a)(y(a)(d)))(y(x(x(a)(a))(x(a)(y(a)(d))))(d)))(d))(d))(d))(y(d)(d))))(x(y(y(x(d)(d))(x(d)(d)))(y(x(d)(d))(x(d)(d))))(y(y(y(x(d)(d))(x(d)(d)))(x(d)(d)))(y(x(d)(d))(x(d)(d)))))", "n": 10, "s": 37}, {"root": [462278, 1, 5862278, 2000000, 1, 2], "tree": "y(x(y(x(x(y(a)(a))(a))(y(a)(a)))(y(x(a)(a))(x(x(a)(y(a)(a)))(x(a)(a)))))(y(x(x(a)(y(x(a)(a))(a)))(x(y(x(x(a)(y(y(a)(a))(a)))(y(x(y(a)(a))(a))(y(x(a)(a))(a))))(y(a)(a)))(y(x(x(y(a)(a))(a))(a))(a))))(x(y(a)(x(a)(y(a)(x(a)(y(a)(x(a)(a)))))))(y(y(a)(x(a)(a)))(x(y(y(a)(a))(x(y(a)(a))(a)))(x(a)(a)))))))(x(y(y(x(y(a)(a))(x(a)(a)))(y(x(a)(a))(x(y(a)(x(a)(a)))(a))))(y(x(y(x(y(x(a)(a))(x(a)(a)))(a))(y(x(a)(a))(a)))(y(a)(x(a)(a))))(y(y(x(a)(a))(x(x(a)(a))(y(a)(a))))(y(x(y(x(a)(a))(x(a)(a)))(y(x(a)(a))(x(a)(a))))(x(x(y(a)(a))(y(a)(a)))(y(x(a)(a))(x(a)(a))))))))(y(x(y(x(x(a)(a))(y(x(a)(y(x(a)(a))(a)))(y(x(a)(a))(a))))(y(a)(a)))(x(y(y(x(y(x(a)(a))(x(a)(a)))(a))(x(a)(a)))(a))(y(a)(x(a)(x(a)(y(a)(a)))))))(y(x(y(a)(x(a)(a)))(x(a)(y(x(a)(a))(a))))(y(x(y(a)(x(a)(a)))(x(y(a)(y(a)(a)))(x(y(a)(a))(a))))(x(y(x(a)(a))(y(x(a)(a))(x(a)(a))))(x(y(x(a)(y(a)(x(a)(a))))(y(x(a)(y(a)(a)))(x(a)(a))))(x(y(x(y(a)(a))(y(a)(a)))(y(x(a)(a))(a)))(x(y(a)(a))(a)))))))))", "n": 158, "s": 0}, {"root": [462278, 1, 5862278, 2000000, 1, 2], "tree": "y(x(y(y(y(y(x(y(x(x(y(a)(d))(a))(y(a)(d)))(d))(y(y(x(y(a)(d))(y(y(x(a)(a))(d))(d)))(d))(d)))(d))(d))(d))(d))(y(y(y(y(y(x(y(x(y(y(x(a)(a))(d))(d))(y(x(y(a)(d))(a))(d)))(d))(x(y(a)(d))(y(y(a)(d))(d))))(d))(d))(d))(d))(d)))(x(y(y(y(d)(x(d)(d)))(y(x(d)(d))(x(d)(d))))(y(y(x(d)(d))(x(d)(d)))(y(x(d)(d))(x(d)(d)))))(y(y(d)(y(d)(y(x(d)(d))(x(d)(d)))))(y(y(x(d)(d))(x(d)(d)))(y(x(d)(d))(x(d)(d))))))", "n": 12, "s": 54}]